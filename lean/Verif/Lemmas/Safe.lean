import Verif.Lemmas.Tidy
/-
The only undefined behaviour of `Unprotect` on well-formed buffers is a shift by a negative
amount.
-/
namespace S2A
open Record (Conn)
open HalfConn (exec_bind_eq_ok Good)

theorem exec_bind_eq_error {α β : Type _} {x : Exec α} {f : α → Exec β} {u : UB}
    (h : (x >>= f) = .error u) : x = .error u ∨ ∃ a, x = .ok a ∧ f a = .error u := by
  cases x with
  | error e => left; cases h; rfl
  | ok a => right; exact ⟨a, rfl, h⟩

namespace Handler

theorem sizeInner_err {b : Bytes} {n : Nat} {sh : Int} {acc : Nat} {u : UB}
    (h : sizeInner b n sh acc = .error u) : u = .negativeShift := by
  induction b generalizing n sh acc with
  | nil => cases h
  | cons x b ih =>
    unfold sizeInner at h
    split at h
    · exact ih h
    · split at h
      · cases h; rfl
      · simp only at h
        split at h
        · cases h
        · exact ih h

theorem sizeOuter_err {fs : List Bytes} {n : Nat} {sh : Int} {acc : Nat} {u : UB}
    (h : sizeOuter fs n sh acc = .error u) : u = .negativeShift := by
  induction fs generalizing n sh acc with
  | nil => cases h
  | cons x fs ih =>
    unfold sizeOuter at h
    rcases exec_bind_eq_error h with h | ⟨a, _, h⟩
    · exact sizeInner_err h
    · exact ih h

/-- A handler in a state its own code can produce. -/
structure Safe (h : Handler) : Prop where
  frag : h.fragments = [] ∨ ∃ b bs fs, h.fragments = (b :: bs) :: fs
  tick : h.retrieved = true ∨ ∃ ts, h.fullTickets = some ts
  hdr : 0 < h.hdrExp
  data : h.inData = true → 0 < h.dataExp ∧ h.fragments ≠ []

theorem Safe.init : Safe init :=
  ⟨Or.inl rfl, Or.inr ⟨_, rfl⟩, by decide, (by intro h; cases h)⟩

theorem Safe.messageType {h : Handler} (s : Safe h) (hf : h.fragments ≠ []) :
    ∃ t, h.messageType = .ok t := by
  rcases s.frag with h1 | ⟨b, bs, fs, h1⟩
  · exact absurd h1 hf
  · exact ⟨b, by simp [Handler.messageType, h1]⟩

/-- Storing a non-empty fragment. -/
theorem Safe.store {h : Handler} (s : Safe h) {bytes : Bytes} (hb : bytes ≠ []) :
    ∃ fs, h.store bytes = .ok { h with fragments := fs } ∧ fs ≠ [] ∧
      ∃ b bs fs', fs = (b :: bs) :: fs' := by
  have happ : (∃ b bs fs', h.fragments ++ [bytes] = (b :: bs) :: fs') := by
    rcases s.frag with h1 | ⟨b, bs, fs, h1⟩
    · obtain ⟨b, bs, rfl⟩ := List.exists_cons_of_ne_nil hb
      exact ⟨b, bs, [], by simp [h1]⟩
    · exact ⟨b, bs, fs ++ [bytes], by simp [h1]⟩
  unfold Handler.store
  by_cases hc : (h.ignoreFuture && h.inData) = true
  · rw [if_pos hc]
    have hd : h.inData = true := by simp at hc; exact hc.2
    obtain ⟨t, ht⟩ := s.messageType (s.data hd).2
    rw [ht, exec_bind_ok]
    by_cases h4 : t = kTicketType
    · rw [if_pos h4]
      refine ⟨h.fragments, rfl, (s.data hd).2, ?_⟩
      rcases s.frag with h1 | h1
      · exact absurd h1 (s.data hd).2
      · exact h1
    · rw [if_neg h4]
      exact ⟨_, rfl, by simp, happ⟩
  · rw [if_neg hc]
    exact ⟨_, rfl, by simp, happ⟩

theorem take_ne {b : Bytes} {n : Nat} (hn : 0 < n) (hb : b ≠ []) : b.take n ≠ [] := by
  obtain ⟨x, xs, rfl⟩ := List.exists_cons_of_ne_nil hb
  cases n with
  | zero => omega
  | succ n => simp

theorem Safe.readFragment {h : Handler} (s : Safe h) {rest : Bytes} (hr : rest ≠ []) :
    h.readFragment rest = .error .negativeShift ∨
    ∃ h' rest' full, h.readFragment rest = .ok (h', rest', full) ∧ Safe h' ∧ h'.fragments ≠ [] ∧
      rest'.length < rest.length ∧ (full = true → h'.inData = false) := by
  have hl := List.length_pos_iff.2 hr
  unfold Handler.readFragment
  by_cases hd : h.inData = false
  · rw [if_pos hd]
    by_cases hle : h.hdrExp ≤ rest.length
    · rw [if_pos hle]
      obtain ⟨fs, e1, e2, e3⟩ := s.store (take_ne s.hdr hr)
      simp only [e1, exec_bind_ok]
      cases hsz : dataSizeFromHeader { h with fragments := fs, hdrExp := kHeaderLen } with
      | error u => left; rw [sizeOuter_err hsz]; rfl
      | ok sz =>
        right
        refine ⟨_, _, _, rfl, ⟨Or.inr e3, s.tick, by show 0 < kHeaderLen; decide, ?_⟩, e2, ?_, ?_⟩
        · intro hx
          simp at hx
          exact ⟨hx, e2⟩
        · have := s.hdr
          simp; omega
        · intro hx; cases hx
    · rw [if_neg hle]
      obtain ⟨fs, e1, e2, e3⟩ := s.store hr
      simp only [e1, exec_bind_ok]
      right
      refine ⟨_, _, _, rfl, ⟨Or.inr e3, s.tick, ?_, ?_⟩, e2, hl, by intro h; cases h⟩
      · show 0 < h.hdrExp - rest.length; omega
      · intro hx; exact absurd hx (by simp [hd])
  · rw [if_neg hd]
    have hd' : h.inData = true := by simpa using hd
    have hdp := (s.data hd').1
    by_cases hle : h.dataExp ≤ rest.length
    · rw [if_pos hle]
      obtain ⟨fs, e1, e2, e3⟩ := s.store (take_ne hdp hr)
      simp only [e1, exec_bind_ok]
      right
      refine ⟨_, _, _, rfl, ⟨Or.inr e3, s.tick, s.hdr, (by intro h; cases h)⟩, e2, ?_, fun _ => rfl⟩
      simp; omega
    · rw [if_neg hle]
      obtain ⟨fs, e1, e2, e3⟩ := s.store hr
      simp only [e1, exec_bind_ok]
      right
      refine ⟨_, _, _, rfl, ⟨Or.inr e3, s.tick, s.hdr, ?_⟩, e2, hl, by intro h; cases h⟩
      intro _
      exact ⟨by show 0 < h.dataExp - rest.length; omega, e2⟩

theorem Safe.loop {fuel : Nat} {h : Handler} {rest : Bytes} {ku tk : Bool} (s : Safe h)
    (hf : rest.length < fuel) :
    loop fuel h rest ku tk = .error .negativeShift ∨
    ∃ h' r, loop fuel h rest ku tk = .ok (h', r) ∧ Safe h' := by
  induction fuel generalizing h rest ku tk with
  | zero => omega
  | succ fuel ih =>
    unfold Handler.loop
    by_cases hr : rest = []
    · rw [if_pos (by simp [hr])]; exact Or.inr ⟨_, _, rfl, s⟩
    rw [if_neg (by simpa using hr)]
    rcases s.readFragment hr with h1 | ⟨h1, rest1, full, e, s1, n1, l1, d1⟩
    · left; rw [h1]; rfl
    rw [e]
    obtain ⟨t, ht⟩ := s1.messageType n1
    simp only [exec_bind_ok, ht]
    have clear : full = true → ∀ h2 : Handler, h2.inData = h1.inData → h2.hdrExp = h1.hdrExp →
        (h2.retrieved = true ∨ ∃ ts, h2.fullTickets = some ts) →
        Safe { h2 with fragments := [] } := by
      intro hfull h2 a b c
      refine ⟨Or.inl rfl, c, by rw [b]; exact s1.hdr, ?_⟩
      intro hx
      simp only [a, d1 hfull] at hx
      cases hx
    by_cases h24 : t = kKeyUpdateType
    · rw [if_pos h24]
      cases hfull : full with
      | false =>
        simp only [Bool.false_eq_true, if_false]
        exact ih s1 (by omega)
      | true =>
        simp only [if_true]
        by_cases hre : rest1 = []
        · rw [if_neg (by simp [hre])]
          exact Or.inr ⟨_, _, rfl, clear hfull h1 rfl rfl s1.tick⟩
        · rw [if_pos (by simpa using hre)]
          exact Or.inr ⟨_, _, rfl, s1⟩
    rw [if_neg h24]
    by_cases h4 : t = kTicketType
    · rw [if_pos h4]
      cases hfull : full with
      | false =>
        simp only [Bool.false_eq_true, if_false]
        exact ih s1 (by omega)
      | true =>
        simp only [if_true]
        by_cases hig : h1.ignoreFuture = true
        · rw [if_pos hig]
          simp only [exec_pure, exec_bind_ok]
          exact ih (clear hfull h1 rfl rfl s1.tick) (by omega)
        · rw [if_neg hig]
          have hret : h1.retrieved = false := by
            simp [Handler.ignoreFuture] at hig; exact hig.1
          obtain ⟨ts, hts⟩ : ∃ ts, h1.fullTickets = some ts := by
            rcases s1.tick with h | h
            · rw [hret] at h; cases h
            · exact h
          simp only [Handler.addTicket, hts, exec_bind_ok]
          have hs2 := clear hfull
            { h1 with fullTickets := some (ts ++ [h1.fragments]), numFull := h1.numFull + 1 }
            rfl rfl (Or.inr ⟨_, rfl⟩)
          exact ih hs2 (by omega)
    · rw [if_neg h4]
      exact Or.inr ⟨_, _, rfl, s1⟩

theorem Safe.process {h : Handler} (s : Safe h) (b : Bytes) :
    h.process b = .error .negativeShift ∨ ∃ h' r, h.process b = .ok (h', r) ∧ Safe h' :=
  s.loop (Nat.lt_succ_self _)

theorem Safe.getStored {h : Handler} (s : Safe h) :
    ∃ h' r, h.getStoredTickets = .ok (h', r) ∧ Safe h' := by
  unfold Handler.getStoredTickets
  by_cases hr : h.retrieved = true
  · rw [if_pos hr]; exact ⟨_, _, rfl, s⟩
  rw [if_neg hr]
  obtain ⟨ts, hts⟩ : ∃ ts, h.fullTickets = some ts := by
    rcases s.tick with h1 | h1
    · exact absurd h1 hr
    · exact h1
  have fin : ∀ w : Bool, ∃ h' r, ((if w = true then pure (h, .error .internal) else
      match h.fullTickets with
      | none => .error .assertFail
      | some ts => pure ({ h with retrieved := true, numFull := 0, fullTickets := none }, .ok ts) :
        Exec (Handler × Except StatusCode (List (List Bytes)))) = .ok (h', r)) ∧ Safe h' := by
    intro w
    cases w with
    | true => exact ⟨_, _, rfl, s⟩
    | false =>
      simp only [Bool.false_eq_true, if_false, hts]
      exact ⟨_, _, rfl, ⟨s.frag, Or.inl rfl, s.hdr, s.data⟩⟩
  by_cases he : h.expectingMore = true
  · rw [if_pos he]
    obtain ⟨t, ht⟩ := s.messageType (by
      intro h0; rw [Handler.expectingMore, h0] at he; cases he)
    simp only [ht, exec_bind_ok, exec_pure]
    exact fin _
  · rw [if_neg he]
    simp only [exec_bind_ok, exec_pure]
    exact fin false

end Handler

namespace Record
open Handler (Safe)

theorem retrieveAndSend_safe {c : Conn} (s : Safe c.handler) :
    ∃ c', retrieveAndSend c = .ok c' ∧ Safe c'.handler := by
  obtain ⟨h', r, e, s'⟩ := s.getStored
  unfold retrieveAndSend
  rw [e]
  simp only [exec_bind_ok]
  cases r with
  | error e => exact ⟨_, rfl, s'⟩
  | ok ts => exact ⟨_, rfl, s'⟩

theorem handleTickets_safe {c : Conn} (s : Safe c.handler) (r : Handler.Result) :
    ∃ c', handleTickets c r = .ok c' ∧ Safe c'.handler := by
  unfold handleTickets
  split
  · exact ⟨_, rfl, s⟩
  · simp only
    split
    · obtain ⟨c', e, s'⟩ := retrieveAndSend_safe (c := if r.containsTicket then
        { c with phase := .receiving } else c) (by split <;> exact s)
      rw [e]
      exact ⟨_, rfl, s'⟩
    · refine ⟨_, rfl, ?_⟩
      split <;> exact s

theorem handleResult_safe {L : Lib} {f : KeyFault} {c : Conn} {su} (hg : Good su c.inC)
    (s : Safe c.handler) (r : Except StatusCode Handler.Result) :
    ∃ c' st rk, handleResult L f c r = .ok (c', st, rk) ∧ Safe c'.handler := by
  unfold handleResult
  cases r with
  | error e => exact ⟨_, _, _, rfl, s⟩
  | ok r =>
    simp only
    by_cases hk : r.containsKeyUpdate = true
    · rw [if_pos hk]
      obtain ⟨hc', st, h1, _⟩ := HalfConn.updateKey_spec L f su c.inC hg
      simp only [h1, exec_bind_ok]
      by_cases hst : st = .ok
      · rw [if_neg (not_not_intro hst)]
        obtain ⟨c', e, s'⟩ := handleTickets_safe (c := { c with expecting := r.expecting, inC := hc' }) s r
        simp only [e, exec_bind_ok]
        exact ⟨_, _, _, rfl, s'⟩
      · rw [if_pos hst]
        exact ⟨_, _, _, rfl, s⟩
    · rw [if_neg hk]
      obtain ⟨c', e, s'⟩ := handleTickets_safe (c := { c with expecting := r.expecting }) s r
      simp only [e, exec_bind_ok]
      exact ⟨_, _, _, rfl, s'⟩

/-- After a decryption. -/
theorem dispatch_safe {L : Lib} {f : KeyFault} {c : Conn} {call p tail su} (hg : Good su c.inC)
    (s : Safe c.handler) :
    dispatch L f c call (p ++ tail) p.length = .error .negativeShift ∨
    ∃ c' r, dispatch L f c call (p ++ tail) p.length = .ok (c', r) ∧ Safe c'.handler ∧
      ∃ o, r.out = .buf o ∧ o.length = (p ++ tail).length := by
  rcases unpad_cases p with ⟨hu, _⟩ | ⟨content, t, k, ht, hpe, hu⟩
  · rw [dispatch_none _ _ _ _ _ _ hu]; exact Or.inr ⟨_, _, rfl, s, _, rfl, rfl⟩
  by_cases t1 : t = Spec.alertType
  · rw [t1] at hu
    rw [dispatch_alert _ _ _ _ _ _ hu]
    right
    split
    · exact ⟨_, _, rfl, s, _, rfl, by simp⟩
    · split
      · exact ⟨_, _, rfl, s, _, rfl, by simp⟩
      · exact ⟨_, _, rfl, s, _, rfl, by simp⟩
  by_cases t2 : t = Spec.handshakeType
  · rw [t2] at hu
    rw [dispatch_handshake _ _ _ _ _ _ hu]
    rcases s.process content with h | ⟨h', r, h, s'⟩
    · left; rw [h]; rfl
    · right
      rw [h]
      simp only [exec_bind_ok]
      obtain ⟨c', st, rk, e, s''⟩ := handleResult_safe (c := { c with handler := h' }) (L := L)
        (f := f) hg s' r
      simp only [e, exec_bind_ok]
      exact ⟨_, _, rfl, s'', _, rfl, rfl⟩
  by_cases t3 : t = Spec.appDataType
  · rw [t3] at hu
    rw [dispatch_appData _ _ _ _ _ _ hu]
    right
    split
    · exact ⟨_, _, rfl, s, _, rfl, rfl⟩
    · split
      · obtain ⟨c', e, s'⟩ := retrieveAndSend_safe s
        rw [e]
        exact ⟨_, _, rfl, s', _, rfl, rfl⟩
      · exact ⟨_, _, rfl, s, _, rfl, rfl⟩
  · rw [dispatch_other _ _ _ _ _ _ hu t1 t2 t3]; exact Or.inr ⟨_, _, rfl, s, _, rfl, by simp⟩

theorem Iovec.setBytes_len {v : Iovec} {b : Bytes} (h : b.length = v.len) :
    (v.setBytes b).len = v.len := by
  cases v <;> simp_all [Iovec.setBytes, Iovec.len]

theorem unprotect_safe' {L : Lib} {f : Fault} {c : Conn} {header payload out su}
    (hg : Good su c.inC) (s : Safe c.handler) (hp : AllWF payload) (ho : out.WF) :
    unprotect L f c header payload out = .error .negativeShift ∨
    ∃ c' r, unprotect L f c header payload out = .ok (c', r) ∧ Safe c'.handler ∧
      r.out.len = out.len ∧ r.out.WF := by
  have hw : (out.setBytes (zeros out.len)).WF := by
    cases out <;> simp_all [Iovec.setBytes, Iovec.WF]
  have hl : (out.setBytes (zeros out.len)).len = out.len := Iovec.setBytes_len (by simp)
  rcases unprotect_spec L f c header payload out hg.nonce hp ho with ⟨_, h⟩ | ⟨_, h⟩
  · rw [h]; exact Or.inr ⟨_, _, rfl, s, rfl, ho⟩
  rcases h with ⟨_, h⟩ | ⟨_, h⟩ | ⟨_, _, ⟨_, h⟩ | ⟨_, ⟨_, h⟩ | ⟨_, ⟨h, _⟩ | ⟨p, ob, h1, h2, h3, h4, h5, h⟩⟩⟩⟩
  · rw [h]; exact Or.inr ⟨_, _, rfl, s, rfl, ho⟩
  · rw [h]; exact Or.inr ⟨_, _, rfl, s, rfl, ho⟩
  · rw [h]; exact Or.inr ⟨_, _, rfl, s, rfl, ho⟩
  · rw [h]; exact Or.inr ⟨_, _, rfl, s, hl, hw⟩
  · rw [h]; exact Or.inr ⟨_, _, rfl, s, hl, hw⟩
  · rw [h]
    rcases dispatch_safe (L := L) (f := f.key) (c := { c with inC := HalfConn.bump c.inC })
      (call := some ⟨c.inC.aead.key, Spec.recordNonce c.inC.nonce c.inC.seq.toNat,
        Spec.recordHeader (totalLen payload), flat payload⟩) (p := p) (tail := ob.drop p.length)
      (HalfConn.bump_good hg) s with h | ⟨c', r, h, s', o, g1, g2⟩
    · exact Or.inl h
    · refine Or.inr ⟨c', r, h, s', ?_, by rw [g1]; trivial⟩
      rw [g1, h2]
      simp only [Iovec.len, g2, List.length_append, List.length_drop]
      omega

theorem Reach.safe {L : Lib} {a c evs} (h : Reach L a c evs) : Safe c.handler := by
  obtain ⟨su, hs⟩ := h.suite
  obtain ⟨c0, ops, h1, h2⟩ := h
  have key := run_snoc_induct (P := fun c evs => Reach L a c evs ∧ Safe c.handler)
    ⟨⟨c0, [], h1, rfl⟩, by
      obtain ⟨fi, fo, h⟩ := h1
      obtain ⟨_, _, _, _, _, _, e⟩ := create_inv h
      rw [e]; exact Safe.init⟩ (fun c evs op c' ev hp hst => ⟨hp.1.step hst, by
      obtain ⟨hr, s⟩ := hp
      rcases step_cases hst with ⟨g1, _⟩ | ⟨_, _, i, c1, _, _, _, _, _, _, g1, g2⟩ |
        ⟨content, f, r, i, h', res, st, _, _, _, g1, g2⟩
      · rw [g1.handler]; exact s
      · obtain ⟨c2, e, s2⟩ := retrieveAndSend_safe (c := { c with inC := i }) s
        rw [e] at g1
        cases g1
        rw [g2]; exact s2
      · have s' : Safe h' := by
          rcases s.process content with e | ⟨h2, r2, e, s2⟩
          · rw [e] at g1; cases g1
          · rw [e] at g1; cases g1; exact s2
        generalize r.rekey = rk at g2
        cases res with
        | error e => cases g2; exact s'
        | ok r =>
          unfold handleResult at g2
          simp only at g2
          split at g2
          · simp only [exec_bind_eq_ok] at g2
            obtain ⟨⟨j, st'⟩, _, g3⟩ := g2
            simp only at g3
            split at g3
            · cases g3; exact s'
            · simp only [exec_bind_eq_ok] at g3
              obtain ⟨c2, g4, g5⟩ := g3
              cases g5
              obtain ⟨c3, e, s3⟩ := handleTickets_safe
                (c := { c with inC := j, handler := h', expecting := r.expecting }) s' r
              rw [e] at g4; cases g4; exact s3
          · simp only [exec_bind_eq_ok] at g2
            obtain ⟨c2, g4, g5⟩ := g2
            cases g5
            obtain ⟨c3, e, s3⟩ := handleTickets_safe
              (c := { c with inC := i, handler := h', expecting := r.expecting }) s' r
            rw [e] at g4; cases g4; exact s3⟩) h2
  exact key.2

/-- Without failures of the library, `Unprotect` depends on the bytes of the payload only. -/
def openFlat (L : Lib) (f : KeyFault) (c : Conn) (header : Iovec) (b : Bytes) (out : Iovec) :
    Exec (Conn × Result) :=
  if c.closeNotify = true then .ok (c, ⟨.alertCloseNotify, 0, out, none, none, none⟩)
  else if header.len + b.length < 22 then
    .ok (c, ⟨.failedPrecondition, 0, out, none, none, none⟩)
  else if header.len + b.length > 16406 then
    .ok (c, ⟨.alertRecordOverflow, 0, out, none, none, none⟩)
  else if header ≠ .buf (Spec.recordHeader b.length) then
    .ok (c, ⟨.failedPrecondition, 0, out, none, none, none⟩)
  else if HalfConn.blocked c.inC = true then
    .ok (c, ⟨.internalError, 0, out.setBytes (zeros out.len), none, none, none⟩)
  else
    let nonce := Spec.recordNonce c.inC.nonce c.inC.seq.toNat
    let hdr := Spec.recordHeader b.length
    let call : HalfConn.AeadCall := ⟨c.inC.aead.key, nonce, hdr, b⟩
    match Spec.aeadOpen L c.inC.aead.alg c.inC.aead.key nonce hdr b with
    | none => .ok ({ c with inC := HalfConn.bump c.inC },
        ⟨.internalError, 0, out.setBytes (zeros out.len), some call, none, none⟩)
    | some p => dispatch L f { c with inC := HalfConn.bump c.inC } (some call)
        (p ++ out.bytes.drop p.length) p.length

theorem unprotect_flat (L : Lib) (f : Fault) (c : Conn) (header : Iovec) (payload : List Iovec)
    (out : Iovec) (hn : c.inC.nonce.length = 12) (hp : AllWF payload) (ho : out.WF)
    (hf : f.evp = .none) (hroom : totalLen payload - 16 ≤ out.len) :
    unprotect L f c header payload out = openFlat L f.key c header (flat payload) out := by
  have hfl := hp.totalLen_eq
  unfold openFlat
  rw [← hfl]
  rcases unprotect_spec L f c header payload out hn hp ho with ⟨h1, h⟩ | ⟨h1, h⟩
  · rw [if_pos h1]; exact h
  rw [if_neg (by simp [h1])]
  rcases h with ⟨h2, h⟩ | ⟨h2, h⟩ | ⟨h2, h3, h⟩
  · rw [if_pos h2]; exact h
  · rw [if_neg (by omega), if_pos h2]; exact h
  rw [if_neg (by omega), if_neg (by omega)]
  rcases h with ⟨h4, h⟩ | ⟨h4, h⟩
  · rw [if_pos h4]; exact h
  rw [if_neg (not_not_intro h4)]
  rcases h with ⟨h5, h⟩ | ⟨h5, h⟩
  · rw [if_pos h5]; exact h
  rw [if_neg (by simp [h5])]
  rcases h with ⟨h6, h⟩ | ⟨p, ob, g1, g2, g3, g4, g5, h⟩
  · simp only [h hf hroom]; exact h6
  · simp only [g1]; rw [h, g2]; rfl

end Record
end S2A
