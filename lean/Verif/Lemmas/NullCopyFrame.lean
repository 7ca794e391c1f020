import Verif.Model.NullCopyFrame
import Verif.Lemmas.NullCopyHandler
import Verif.Lemmas.NullCopyAead
namespace S2A.NullCopy
open Spec.NullCopy

/-! ### The record layer -/

/-- With no room at all decryption of a ciphertext with a byte ends without clearing. -/
theorem decLoop_noRoom (L : Lib) (f : EvpFault) (o : Iovec) : ∀ (vs : List Iovec) (k : Nat)
    (c : Aead.Ctx) (out : Bytes) (off : Nat) (cur : Bytes), (∀ v ∈ vs, NotNull v) →
    Aead.kTagSize < totalLen vs →
    decLoop L f o k c out off 0 (totalLen vs) cur vs = .ok (out, .error .invalidArgument) ∧
      Aead.decLoop L f k c out off 0 (totalLen vs) cur vs = .ok (out, .error .invalidArgument)
  | [], _, _, _, _, _, _, h => by simp [totalLen] at h
  | v :: vs, k, c, out, off, cur, hn, h => by
    obtain ⟨d, rfl⟩ := hn v (by simp)
    unfold decLoop Aead.decLoop
    have hk : ¬ totalLen (Iovec.buf d :: vs) ≤ Aead.kTagSize := Nat.not_le.mpr h
    rw [if_neg hk, if_neg hk]
    by_cases hd : d = []
    · subst hd
      have e : totalLen (Iovec.buf [] :: vs) = totalLen vs := by simp [totalLen_cons, Iovec.len]
      have hz : (Iovec.buf []).len = 0 := rfl
      rw [if_pos hz, if_pos hz, e]
      rw [e] at h
      exact decLoop_noRoom L f o vs _ _ _ _ _ (fun w hw => hn w (List.mem_cons_of_mem _ hw)) h
    · have hl : 0 < d.length := List.length_pos_iff.mpr hd
      have hz : ¬ (Iovec.buf d).len = 0 := by simp only [Iovec.len]; omega
      rw [if_neg hz, if_neg hz]
      simp only []
      have hb : 0 < (if d.length > totalLen (Iovec.buf d :: vs) - Aead.kTagSize then
          totalLen (Iovec.buf d :: vs) - Aead.kTagSize else d.length) := by
        split <;> omega
      rw [if_pos hb, if_pos hb]
      exact ⟨rfl, rfl⟩

theorem evpDecrypt_record (L : Lib) (f : EvpFault) (alg : Alg) (key nonce : Bytes)
    (aad ct : List Iovec) (out : Iovec) (hn : ∀ v ∈ ct, NotNull v) (ht : Aead.kTagSize < totalLen ct) :
    evpDecrypt L f alg key nonce aad ct out = Aead.evpDecrypt L f alg key nonce aad ct out := by
  cases out with
  | buf d =>
    rcases evpDecrypt_cases L f alg key nonce aad ct (.buf d) with h | ⟨_, ⟨⟨n, h⟩, _⟩ | ⟨v, hv, n, h⟩⟩
    · exact h
    · cases h
    · obtain ⟨d, hd⟩ := hn v hv
      rw [hd] at h; cases h
  | null n =>
    unfold evpDecrypt Aead.evpDecrypt
    split
    · rfl
    simp only []
    split
    · rfl
    split
    · rfl
    split
    · rfl
    cases Aead.setAad f 0 ⟨alg, key, nonce, [], []⟩ aad with
    | error e => rfl
    | ok x =>
      cases x with
      | error e => rfl
      | ok c =>
        simp only [exec_bind_ok]
        have hl : (Iovec.null n).bytes.length = 0 := rfl
        obtain ⟨h1, h2⟩ := decLoop_noRoom L f (.null n) ct 0 c (Iovec.null n).bytes 0 [] hn ht
        rw [hl, h1, h2]
        rfl

theorem halfDecrypt_eq (L : Lib) (f : EvpFault) (hc : HalfConn) (aad ct : List Iovec) (out : Iovec)
    (hn : ∀ v ∈ ct, NotNull v) (ht : Aead.kTagSize < totalLen ct) :
    halfDecrypt L f hc aad ct out = hc.decrypt L f aad ct out := by
  unfold halfDecrypt HalfConn.decrypt crypterDecrypt Aead.Crypter.decrypt
  simp only [evpDecrypt_record L f _ _ _ aad ct out hn ht]

section
open Record

theorem retrieveAndSend_eq {c : Conn} (hw : Wait c.handler) :
    retrieveAndSend c = Record.retrieveAndSend c := by
  unfold retrieveAndSend Record.retrieveAndSend getStoredTickets
  cases hg : c.handler.getStoredTickets with
  | error e => rfl
  | ok x =>
    obtain ⟨h', r⟩ := x
    cases r with
    | error e => rfl
    | ok ts =>
      simp only [exec_bind_ok]
      rw [mapM_merge ts ((getStoredTickets_wait hw hg).2 ts rfl)]
      rfl

theorem retrieveAndSend_wait {c c' : Conn} (hw : Wait c.handler)
    (h : Record.retrieveAndSend c = .ok c') : Wait c'.handler := by
  unfold Record.retrieveAndSend at h
  cases hg : c.handler.getStoredTickets with
  | error e => simp [hg] at h
  | ok x =>
    obtain ⟨h', r⟩ := x
    simp only [hg, exec_bind_ok] at h
    have hw' := (getStoredTickets_wait hw hg).1
    cases r with
    | error e => cases h; exact hw'
    | ok ts => cases h; exact hw'

theorem handleTickets_eq {c : Conn} (r : Handler.Result) (hw : Wait c.handler) :
    handleTickets c r = Record.handleTickets c r := by
  unfold handleTickets Record.handleTickets
  cases hp : c.phase
  case done => rfl
  all_goals
    simp only []
    generalize hg : (if r.containsTicket = true then { c with phase := .receiving } else c) = g
    have hwg : Wait g.handler := by
      rw [← hg]; split <;> exact hw
    rw [retrieveAndSend_eq hwg]

theorem handleTickets_wait {c c' : Conn} {r : Handler.Result} (hw : Wait c.handler)
    (h : Record.handleTickets c r = .ok c') : Wait c'.handler := by
  unfold Record.handleTickets at h
  split at h
  · cases h; exact hw
  · simp only [] at h
    generalize hg : (if r.containsTicket = true then { c with phase := .receiving } else c) = g at h
    have hwg : Wait g.handler := by
      rw [← hg]; split <;> exact hw
    split at h
    · cases hs : Record.retrieveAndSend g with
      | error e => simp [hs] at h
      | ok c1 =>
        simp only [hs, exec_bind_ok] at h
        have hw1 := retrieveAndSend_wait hwg hs
        cases h
        exact hw1
    · cases h; exact hwg

theorem afterMessage_eq (L : Lib) (f : KeyFault) {c : Conn} (r : Except StatusCode Handler.Result)
    (hw : Wait c.handler) : afterMessage L f c r = Record.handleResult L f c r := by
  unfold afterMessage Record.handleResult
  cases r with
  | error e => rfl
  | ok r =>
    simp only []
    split
    · cases c.inC.updateKey L f with
      | error e => rfl
      | ok x =>
        simp only [exec_bind_ok]
        rw [handleTickets_eq r (c := { c with expecting := r.expecting, inC := x.1 }) hw]
    · rw [handleTickets_eq r (c := { c with expecting := r.expecting }) hw]

theorem handleResult_wait {L : Lib} {f : KeyFault} {c c' : Conn}
    {r : Except StatusCode Handler.Result} {st : StatusCode} {k : Option StatusCode}
    (hw : Wait c.handler) (h : Record.handleResult L f c r = .ok (c', st, k)) :
    Wait c'.handler := by
  unfold Record.handleResult at h
  cases r with
  | error e => cases h; exact hw
  | ok r =>
    simp only [] at h
    split at h
    · cases hu : c.inC.updateKey L f with
      | error e => simp [hu] at h
      | ok x =>
        simp only [hu, exec_bind_ok] at h
        split at h
        · cases h; exact hw
        · cases ht : Record.handleTickets { c with expecting := r.expecting, inC := x.1 } r with
          | error e => simp [ht] at h
          | ok c1 =>
            simp only [ht, exec_bind_ok] at h
            cases h
            exact handleTickets_wait (c := { c with expecting := r.expecting, inC := x.1 }) hw ht
    · cases ht : Record.handleTickets { c with expecting := r.expecting } r with
      | error e => simp [ht] at h
      | ok c1 =>
        simp only [ht, exec_bind_ok] at h
        cases h
        exact handleTickets_wait (c := { c with expecting := r.expecting }) hw ht

theorem dispatch_eq (L : Lib) (f : KeyFault) {c : Conn} (call : Option HalfConn.AeadCall)
    (pt : Bytes) (w : Nat) (hw : Wait c.handler) :
    dispatch L f c call pt w = Record.dispatch L f c call pt w := by
  unfold dispatch Record.dispatch
  cases lastNonzero pt w with
  | error e => rfl
  | ok x =>
    simp only [exec_bind_ok]
    cases x with
    | none => rfl
    | some x =>
      obtain ⟨n, t⟩ := x
      simp only []
      split
      · rfl
      split
      · have hp : process c.handler (pt.take n) = c.handler.process (pt.take n) :=
          loop_eq _ _ _ _ _ hw
        rw [hp]
        cases hq : c.handler.process (pt.take n) with
        | error e => rfl
        | ok y =>
          simp only [exec_bind_ok]
          have hw' : Wait y.1 := loop_wait _ _ _ _ _ _ _ hw hq
          rw [afterMessage_eq L f y.2 (c := { c with handler := y.1 }) hw']
      split
      · split
        · rfl
        split
        · rw [retrieveAndSend_eq hw]
        · rfl
      · rfl

theorem dispatch_wait {L : Lib} {f : KeyFault} {c c' : Conn} {call : Option HalfConn.AeadCall}
    {pt : Bytes} {w : Nat} {r : Result} (hw : Wait c.handler)
    (h : Record.dispatch L f c call pt w = .ok (c', r)) : Wait c'.handler := by
  unfold Record.dispatch at h
  cases hx : lastNonzero pt w with
  | error e => simp [hx] at h
  | ok x =>
    simp only [hx, exec_bind_ok] at h
    cases x with
    | none => cases h; exact hw
    | some x =>
      obtain ⟨n, t⟩ := x
      simp only [] at h
      split at h
      · split at h
        · cases h; exact hw
        split at h
        · cases h
        split at h
        · cases h; exact hw
        · cases h; exact hw
      split at h
      · cases hq : c.handler.process (pt.take n) with
        | error e => simp [hq] at h
        | ok y =>
          simp only [hq, exec_bind_ok] at h
          have hw' : Wait y.1 := loop_wait _ _ _ _ _ _ _ hw hq
          cases hr : Record.handleResult L f { c with handler := y.1 } y.2 with
          | error e => simp [hr] at h
          | ok z =>
            obtain ⟨c1, st, k⟩ := z
            simp only [hr, exec_bind_ok] at h
            have hw1 := handleResult_wait (c := { c with handler := y.1 }) hw' hr
            split at h
            · cases h; exact hw1
            · cases h; exact hw1
      split at h
      · split at h
        · cases h; exact hw
        split at h
        · cases hs : Record.retrieveAndSend c with
          | error e => simp [hs] at h
          | ok c1 =>
            simp only [hs, exec_bind_ok] at h
            have hw1 := retrieveAndSend_wait hw hs
            cases h
            exact hw1
        · cases h; exact hw
      · cases h; exact hw

theorem validateHeader_len {header : Iovec} {n : Nat} (h : validateHeader header n = true) :
    header.len = 5 := by
  unfold validateHeader at h
  split at h
  · rfl
  · cases h

theorem unprotect_eq (L : Lib) (f : Fault) {c : Conn} (header : Iovec) (payload : List Iovec)
    (out : Iovec) (hw : Wait c.handler) (hn : ∀ v ∈ payload, NotNull v) :
    unprotect L f c header payload out = Record.unprotect L f c header payload out := by
  unfold unprotect Record.unprotect
  split
  · rfl
  simp only []
  split
  · rfl
  split
  · rfl
  split
  · rfl
  rename_i h1 h2 h3
  have hh := validateHeader_len (by simpa using h3)
  have ht : Aead.kTagSize < totalLen payload := by
    have e : c.recordOverhead = 5 + 1 + Aead.kTagSize := rfl
    omega
  rw [halfDecrypt_eq L f.evp c.inC [header] payload out hn ht]
  cases c.inC.decrypt L f.evp [header] payload out with
  | error e => rfl
  | ok x =>
    obtain ⟨inC, call, r⟩ := x
    simp only [exec_bind_ok]
    split
    · rfl
    cases r.out with
    | null n => rfl
    | buf pt => exact dispatch_eq L f.key (c := { c with inC := inC }) call pt r.written hw

theorem unprotect_wait {L : Lib} {f : Fault} {c c' : Conn} {header : Iovec} {payload : List Iovec}
    {out : Iovec} {r : Result} (hw : Wait c.handler)
    (h : Record.unprotect L f c header payload out = .ok (c', r)) : Wait c'.handler := by
  unfold Record.unprotect at h
  split at h
  · cases h; exact hw
  simp only [] at h
  split at h
  · cases h; exact hw
  split at h
  · cases h; exact hw
  split at h
  · cases h; exact hw
  cases hd : c.inC.decrypt L f.evp [header] payload out with
  | error e => simp [hd] at h
  | ok x =>
    obtain ⟨inC, call, q⟩ := x
    simp only [hd, exec_bind_ok] at h
    split at h
    · cases hz : zeroOut q.out with
      | error e => simp [hz] at h
      | ok z =>
        simp only [hz, exec_bind_ok] at h
        cases h; exact hw
    split at h
    · cases h
    · exact dispatch_wait (c := { c with inC := inC }) hw h

theorem protect_handler {L : Lib} {f : EvpFault} {c c' : Conn} {rt : RecordType}
    {pt : List Iovec} {out : Iovec} {r : Result}
    (h : Record.protect L f c rt pt out = .ok (c', r)) : c'.handler = c.handler := by
  unfold Record.protect at h
  simp only [bind, Except.bind, pure, Except.pure] at h
  repeat' split at h
  all_goals first | (cases h; rfl) | cases h | skip

theorem halfDecrypt_or (L : Lib) (f : EvpFault) (hc : HalfConn) (aad ct : List Iovec)
    (out : Iovec) : halfDecrypt L f hc aad ct out = hc.decrypt L f aad ct out ∨
      halfDecrypt L f hc aad ct out = .error .nullDeref := by
  unfold halfDecrypt HalfConn.decrypt crypterDecrypt Aead.Crypter.decrypt
  split
  · exact .inl rfl
  cases hc.nonceMask with
  | error e => exact .inl rfl
  | ok x =>
    obtain ⟨n, hc'⟩ := x
    simp only [exec_bind_ok]
    split
    · exact .inl rfl
    · rcases evpDecrypt_cases L f hc.aead.alg hc.aead.key n aad ct out with h | ⟨h, _⟩
      · rw [h]; exact .inl rfl
      · rw [h]; exact .inr rfl

theorem unprotect_or (L : Lib) (f : Fault) {c : Conn} (header : Iovec) (payload : List Iovec)
    (out : Iovec) (hw : Wait c.handler) :
    unprotect L f c header payload out = Record.unprotect L f c header payload out ∨
      unprotect L f c header payload out = .error .nullDeref := by
  unfold unprotect Record.unprotect
  split
  · exact .inl rfl
  simp only []
  split
  · exact .inl rfl
  split
  · exact .inl rfl
  split
  · exact .inl rfl
  rcases halfDecrypt_or L f.evp c.inC [header] payload out with h | h
  · rw [h]
    left
    cases c.inC.decrypt L f.evp [header] payload out with
    | error e => rfl
    | ok x =>
      obtain ⟨inC, call, r⟩ := x
      simp only [exec_bind_ok]
      split
      · rfl
      cases r.out with
      | null n => rfl
      | buf pt => exact dispatch_eq L f.key (c := { c with inC := inC }) call pt r.written hw
  · rw [h]
    exact .inr rfl

theorem updateOutboundKey_handler {L : Lib} {f : KeyFault} {c c' : Conn} {st : StatusCode}
    (h : updateOutboundKey L f c = .ok (c', st)) : c'.handler = c.handler := by
  unfold updateOutboundKey at h
  cases hu : c.outC.updateKey L f with
  | error e => simp [hu] at h
  | ok x =>
    obtain ⟨o, s⟩ := x
    simp only [hu, exec_bind_ok] at h
    cases h
    rfl

theorem step_wait {L : Lib} {c c' : Conn} {op : Op} {e : Event} (hw : Wait c.handler)
    (h : Record.step L c op = .ok (c', e)) : Wait c'.handler := by
  cases op with
  | protect f rt pt rec =>
    simp only [Record.step] at h
    cases hx : protect L f c rt pt rec with
    | error e => simp [hx] at h
    | ok x =>
      obtain ⟨c1, r⟩ := x
      simp only [hx, exec_bind_ok] at h
      have := protect_handler hx
      cases h
      rw [this]; exact hw
  | unprotect f hdr pl out =>
    simp only [Record.step] at h
    cases hx : Record.unprotect L f c hdr pl out with
    | error e => simp [hx] at h
    | ok x =>
      obtain ⟨c1, r⟩ := x
      simp only [hx, exec_bind_ok] at h
      have := unprotect_wait hw hx
      cases h
      exact this
  | updateOutboundKey f =>
    simp only [Record.step] at h
    cases hx : updateOutboundKey L f c with
    | error e => simp [hx] at h
    | ok x =>
      obtain ⟨c1, r⟩ := x
      simp only [hx, exec_bind_ok] at h
      have := updateOutboundKey_handler hx
      cases h
      rw [this]; exact hw

theorem recordStep_eq (L : Lib) {c : Conn} (op : Op) (hw : Wait c.handler)
    (hn : ∀ f hdr pl out, op = .unprotect f hdr pl out → ∀ v ∈ pl, NotNull v) :
    recordStep L c op = Record.step L c op := by
  cases op with
  | unprotect f hdr pl out =>
    simp only [recordStep, Record.step]
    rw [unprotect_eq L f hdr pl out hw (hn _ _ _ _ rfl)]
  | _ => rfl

theorem recordStep_or (L : Lib) {c : Conn} (op : Op) (hw : Wait c.handler) :
    recordStep L c op = Record.step L c op ∨ recordStep L c op = .error .nullDeref := by
  cases op with
  | unprotect f hdr pl out =>
    simp only [recordStep, Record.step]
    rcases unprotect_or L f hdr pl out hw with h | h
    · rw [h]; exact .inl rfl
    · rw [h]; exact .inr rfl
  | _ => exact .inl rfl

theorem recordRun_eq (L : Lib) (ops : List Op) : ∀ (c : Conn), Wait c.handler →
    (∀ f hdr pl out, Op.unprotect f hdr pl out ∈ ops → ∀ v ∈ pl, NotNull v) →
    recordRun L c ops = Record.run L c ops := by
  induction ops with
  | nil => intro c _ _; simp only [recordRun, Record.run]
  | cons op ops ih =>
    intro c hw hn
    have h1 := recordStep_eq L op hw (by
      intro f hdr pl out e; exact hn f hdr pl out (by rw [e]; exact List.mem_cons_self))
    simp only [recordRun, Record.run, h1]
    cases hx : Record.step L c op with
    | error e => simp only [exec_bind_error]
    | ok x =>
      obtain ⟨c1, e⟩ := x
      simp only [exec_bind_ok]
      rw [ih c1 (step_wait hw hx) (fun f hdr pl out h => hn f hdr pl out (List.mem_cons_of_mem _ h))]

theorem recordRun_or (L : Lib) (ops : List Op) : ∀ (c : Conn), Wait c.handler →
    recordRun L c ops = Record.run L c ops ∨ recordRun L c ops = .error .nullDeref := by
  induction ops with
  | nil => intro c _; simp only [recordRun, Record.run]; exact .inl trivial
  | cons op ops ih =>
    intro c hw
    rcases recordStep_or L op hw with h1 | h1
    · simp only [recordRun, Record.run, h1]
      cases hx : Record.step L c op with
      | error e => simp only [exec_bind_error]; exact .inl trivial
      | ok x =>
        obtain ⟨c1, e⟩ := x
        simp only [exec_bind_ok]
        rcases ih c1 (step_wait hw hx) with h | h
        · rw [h]; exact .inl rfl
        · rw [h]; exact .inr rfl
    · simp only [recordRun, h1, exec_bind_error]
      exact .inr trivial

end

/-! ### The frame protector -/

namespace Frame
open S2A.Frame

theorem slice_notNull {d : Bytes} {on m : Nat} {p : Iovec} (h : (Iovec.buf d).slice on m = .ok p) :
    NotNull p := by
  unfold Iovec.slice at h
  simp only [] at h
  split at h
  · cases h; exact ⟨_, rfl⟩
  · cases h

theorem isolate_notNull : ∀ (vs : List Iovec) (on rem : Nat) (ps vs' : List Iovec) (on' : Nat),
    isolate vs on rem = .ok (.ok (ps, vs', on')) → ∀ v ∈ ps, NotNull v
  | vs, on, 0, ps, vs', on', h => by
    unfold isolate at h
    cases h
    simp
  | [], on, rem + 1, ps, vs', on', h => by
    unfold isolate at h
    cases h
  | v :: vs, on, rem + 1, ps, vs', on', h => by
    unfold isolate at h
    cases v with
    | null n => cases h
    | buf d =>
      simp only [] at h
      cases h1 : subSize (Iovec.buf d).len on with
      | error e => simp [h1] at h
      | ok left =>
        simp only [h1, exec_bind_ok] at h
        cases h2 : (Iovec.buf d).slice on (min left (rem + 1)) with
        | error e => simp [h2] at h
        | ok piece =>
          have hp := slice_notNull h2
          simp only [h2, exec_bind_ok] at h
          split at h
          · cases h3 : isolate vs 0 (rem + 1 - min left (rem + 1)) with
            | error e => simp [h3] at h
            | ok x =>
              simp only [h3, exec_bind_ok] at h
              cases x with
              | error e => cases h
              | ok x =>
                obtain ⟨qs, ws, o⟩ := x
                have ih := isolate_notNull vs 0 _ qs ws o h3
                cases h
                intro v hv
                rcases List.mem_cons.1 hv with rfl | hv
                · exact hp
                · exact ih v hv
          · cases h
            intro v hv
            rw [List.mem_singleton.1 hv]
            exact hp

theorem crypterUnprotect_eq (L : Lib) (f : Record.Fault) {s : State} (header : Bytes)
    (payload : List Iovec) (out : Iovec) (hw : Wait s.conn.handler)
    (hn : ∀ v ∈ payload, NotNull v) :
    crypterUnprotect L f s header payload out = s.crypterUnprotect L f header payload out := by
  unfold crypterUnprotect State.crypterUnprotect
  rw [unprotect_eq L f _ payload out hw hn]

theorem crypterUnprotect_wait {L : Lib} {f : Record.Fault} {s s' : State} {header : Bytes}
    {payload : List Iovec} {out : Iovec} {r : Record.Result} (hw : Wait s.conn.handler)
    (h : s.crypterUnprotect L f header payload out = .ok (s', r)) : Wait s'.conn.handler := by
  unfold State.crypterUnprotect at h
  cases hu : Record.unprotect L f s.conn (.buf header) payload out with
  | error e => simp [hu] at h
  | ok x =>
    obtain ⟨c, q⟩ := x
    simp only [hu, exec_bind_ok] at h
    have := unprotect_wait hw hu
    cases h
    exact this

theorem unprotectInto_eq (L : Lib) (f : Record.Fault) {s : State} (vs : List Iovec) (out : Iovec)
    (hw : Wait s.conn.handler) :
    unprotectInto L f s vs out = S2A.Frame.unprotectInto L f s vs out := by
  unfold unprotectInto S2A.Frame.unprotectInto
  split
  · rfl
  cases readHeader kHeaderLength 0 vs 0 with
  | error e => rfl
  | ok x =>
    cases x with
    | error e => rfl
    | ok x =>
      obtain ⟨header, vs', on⟩ := x
      simp only [exec_bind_ok]
      cases hi : isolate vs' on (payloadSize header) with
      | error e => rfl
      | ok y =>
        cases y with
        | error e => rfl
        | ok y =>
          obtain ⟨payload, a, b⟩ := y
          simp only [exec_bind_ok]
          rw [crypterUnprotect_eq L f header payload out hw (isolate_notNull _ _ _ _ _ _ hi)]

theorem unprotectInto_wait {L : Lib} {f : Record.Fault} {s s' : State} {vs : List Iovec}
    {out out' : Iovec} {st : StatusCode} {n : Nat} (hw : Wait s.conn.handler)
    (h : S2A.Frame.unprotectInto L f s vs out = .ok (s', st, n, out')) : Wait s'.conn.handler := by
  unfold S2A.Frame.unprotectInto at h
  split at h
  · cases h; exact hw
  cases hr : readHeader kHeaderLength 0 vs 0 with
  | error e => simp [hr] at h
  | ok x =>
    simp only [hr, exec_bind_ok] at h
    cases x with
    | error e => cases h; exact hw
    | ok x =>
      obtain ⟨header, vs', on⟩ := x
      simp only [] at h
      cases hi : isolate vs' on (payloadSize header) with
      | error e => simp [hi] at h
      | ok y =>
        simp only [hi, exec_bind_ok] at h
        cases y with
        | error e => cases h; exact hw
        | ok y =>
          obtain ⟨payload, a, b⟩ := y
          simp only [] at h
          cases hc : s.crypterUnprotect L f header payload out with
          | error e => simp [hc] at h
          | ok z =>
            obtain ⟨s1, r⟩ := z
            simp only [hc, exec_bind_ok] at h
            have hw1 := crypterUnprotect_wait hw hc
            split at h
            · cases h; exact hw1
            · cases h; exact hw1

theorem destroyAll_conn : ∀ (bs : List (BufId × Bytes)) (s : State),
    (s.destroyAll bs).conn = s.conn
  | [], _ => rfl
  | (id, b) :: bs, s => by
    unfold State.destroyAll
    rw [destroyAll_conn bs]
    rfl

theorem unprotectLoop_eq (L : Lib) (A : Allocator) (f : Nat → Record.Fault) : ∀ (fuel i : Nat)
    (s : State) (vs : List Iovec) (on rem : Nat) (done : List (BufId × Bytes)),
    Wait s.conn.handler →
    unprotectLoop L A f fuel i s vs on rem done =
        S2A.Frame.unprotectLoop L A f fuel i s vs on rem done ∧
      ∀ s' r, S2A.Frame.unprotectLoop L A f fuel i s vs on rem done = .ok (s', r) →
        Wait s'.conn.handler
  | 0, _, _, _, _, _, _, _ => ⟨rfl, by intro s' r h; unfold S2A.Frame.unprotectLoop at h; cases h⟩
  | fuel + 1, i, s, vs, on, rem, done, hw => by
    unfold unprotectLoop S2A.Frame.unprotectLoop
    split
    · cases readHeader kHeaderLength 0 vs on with
      | error e => exact ⟨rfl, by intro s' r h; cases h⟩
      | ok x =>
        cases x with
        | error e => exact ⟨rfl, by intro s' r h; cases h; exact hw⟩
        | ok x =>
          obtain ⟨header, vs', on'⟩ := x
          simp only [exec_bind_ok]
          cases hi : isolate vs' on' (payloadSize header) with
          | error e => exact ⟨rfl, by intro s' r h; cases h⟩
          | ok y =>
            cases y with
            | error e => exact ⟨rfl, by intro s' r h; cases h; exact hw⟩
            | ok y =>
              obtain ⟨payload, ws, o⟩ := y
              simp only [exec_bind_ok]
              have hwa : Wait (s.alloc A (payloadSize header)).1.conn.handler := hw
              generalize s.alloc A (payloadSize header) = al at hwa
              obtain ⟨s1, id, buf⟩ := al
              simp only [] at hwa ⊢
              rw [crypterUnprotect_eq L (f i) header payload buf hwa
                (isolate_notNull _ _ _ _ _ _ hi)]
              cases hc : s1.crypterUnprotect L (f i) header payload buf with
              | error e => exact ⟨rfl, by intro s' r h; cases h⟩
              | ok z =>
                obtain ⟨s2, r⟩ := z
                have hw2 := crypterUnprotect_wait hwa hc
                simp only [exec_bind_ok]
                split
                · refine ⟨rfl, ?_⟩
                  intro s' q h
                  cases h
                  rw [destroyAll_conn]
                  exact hw2
                · cases subSize rem (kHeaderLength + payloadSize header) with
                  | error e => exact ⟨rfl, by intro s' r h; cases h⟩
                  | ok rem' =>
                    simp only [exec_bind_ok]
                    exact unprotectLoop_eq L A f fuel _ _ _ _ _ _ hw2
    · exact ⟨rfl, by intro s' r h; cases h; exact hw⟩

theorem protectLoop_wait {L : Lib} {f : Nat → EvpFault} {id : BufId} : ∀ (fuel i : Nat) (s : State)
    (vs : List Iovec) (on : Nat) (first : Bool) (rem idx : Nat) (out : Iovec) (s' : State)
    (st : StatusCode) (out' : Iovec), Wait s.conn.handler →
    protectLoop L f id fuel i s vs on first rem idx out = .ok (s', st, out') →
    Wait s'.conn.handler
  | 0, _, _, _, _, _, _, _, _, _, _, _, _, h => by unfold protectLoop at h; cases h
  | fuel + 1, i, s, vs, on, first, rem, idx, out, s', st, out', hw, h => by
    unfold protectLoop at h
    split at h
    · simp only [] at h
      generalize (if rem < Frame.kMaxPlaintext then rem else Frame.kMaxPlaintext) = n at h
      cases h1 : collect vs on n with
      | error e => simp [h1] at h
      | ok x =>
        obtain ⟨pieces, vs', on'⟩ := x
        simp only [h1, exec_bind_ok] at h
        cases h2 : subSize out.len idx with
        | error e => simp [h2] at h
        | ok room =>
          simp only [h2, exec_bind_ok] at h
          cases h3 : out.slice idx room with
          | error e => simp [h3] at h
          | ok slot =>
            simp only [h3, exec_bind_ok] at h
            unfold State.crypterProtect at h
            cases h4 : Record.protect L (f i) s.conn .applicationData pieces slot with
            | error e => simp [h4] at h
            | ok y =>
              obtain ⟨c, r⟩ := y
              simp only [h4, exec_bind_ok, exec_pure] at h
              have hwc : Wait c.handler := by rw [protect_handler h4]; exact hw
              split at h
              · cases h; exact hwc
              split at h
              · cases h; exact hwc
              · exact protectLoop_wait fuel _ _ _ _ _ _ _ _ _ _ _ hwc h
    · cases h; exact hw

theorem step_eq (L : Lib) (A : Allocator) {s : State} (op : Op) (hw : Wait s.conn.handler) :
    step L A s op = S2A.Frame.step L A s op ∧
      ∀ s' e, S2A.Frame.step L A s op = .ok (s', e) → Wait s'.conn.handler := by
  cases op with
  | protect f vs =>
    refine ⟨rfl, ?_⟩
    intro s' e h
    simp only [S2A.Frame.step, S2A.Frame.protect] at h
    have hwa : Wait (s.alloc A (numberBytesToProtect s (totalLen vs))).1.conn.handler := hw
    generalize s.alloc A (numberBytesToProtect s (totalLen vs)) = al at hwa h
    obtain ⟨s1, id, buf⟩ := al
    simp only [] at h hwa
    cases hp : protectInto L f s1 id vs buf with
    | error e => simp [hp] at h
    | ok x =>
      obtain ⟨s2, st, out⟩ := x
      have hw2 : Wait s2.conn.handler := protectLoop_wait _ _ _ _ _ _ _ _ _ _ _ _ hwa hp
      simp only [hp, exec_bind_ok] at h
      split at h
      · cases h; exact hw2
      · cases h; exact hw2
  | protectInto f vs out =>
    refine ⟨rfl, ?_⟩
    intro s' e h
    simp only [S2A.Frame.step] at h
    cases hp : S2A.Frame.protectInto L f s .caller vs out with
    | error e => simp [hp] at h
    | ok x =>
      obtain ⟨s2, st, out⟩ := x
      have hw2 : Wait s2.conn.handler := protectLoop_wait _ _ _ _ _ _ _ _ _ _ _ _ hw hp
      simp only [hp, exec_bind_ok] at h
      cases h; exact hw2
  | unprotect f vs =>
    have hl := unprotectLoop_eq L A f (totalLen vs + 1) 0 s vs 0 (totalLen vs) [] hw
    simp only [step, S2A.Frame.step, unprotect, S2A.Frame.unprotect]
    split
    · exact ⟨rfl, by intro s' e h; cases h; exact hw⟩
    · rw [hl.1]
      refine ⟨rfl, ?_⟩
      intro s' e h
      cases hx : S2A.Frame.unprotectLoop L A f (totalLen vs + 1) 0 s vs 0 (totalLen vs) [] with
      | error e => simp [hx] at h
      | ok x =>
        obtain ⟨s1, r⟩ := x
        simp only [hx, exec_bind_ok] at h
        have := hl.2 _ _ hx
        cases h
        exact this
  | unprotectInto f vs out =>
    simp only [step, S2A.Frame.step]
    rw [unprotectInto_eq L f vs out hw]
    refine ⟨rfl, ?_⟩
    intro s' e h
    cases hx : S2A.Frame.unprotectInto L f s vs out with
    | error e => simp [hx] at h
    | ok x =>
      obtain ⟨s1, st, n, o⟩ := x
      simp only [hx, exec_bind_ok] at h
      have := unprotectInto_wait hw hx
      cases h
      exact this

theorem run_eq (L : Lib) (A : Allocator) (ops : List Op) : ∀ (s : State), Wait s.conn.handler →
    run L A s ops = S2A.Frame.run L A s ops := by
  induction ops with
  | nil => intro s _; simp only [run, S2A.Frame.run]
  | cons op ops ih =>
    intro s hw
    obtain ⟨h1, h2⟩ := step_eq L A op hw
    simp only [run, S2A.Frame.run, h1]
    cases hx : S2A.Frame.step L A s op with
    | error e => simp only [exec_bind_error]
    | ok x =>
      obtain ⟨s1, e⟩ := x
      simp only [exec_bind_ok]
      rw [ih s1 (h2 _ _ hx)]

end Frame
end S2A.NullCopy
