import Verif.Lemmas.FrameReach
import Verif.Lemmas.Safe
import Verif.Lemmas.FrameEmpty
/-
Helper lemmas: no function of the model runs out of fuel, whatever buffers it is given.
-/
namespace S2A

/-- The computation comes to an end: with a value, or in undefined behaviour. -/
structure Ends {α : Type} (x : Exec α) : Prop where
  ne : x ≠ .error .diverges

theorem ends_ok {α : Type} (a : α) : Ends (.ok a : Exec α) := ⟨by simp⟩
theorem ends_pure {α : Type} (a : α) : Ends (pure a : Exec α) := ⟨by simp⟩
theorem ends_error {α : Type} {u : UB} (h : u ≠ .diverges) : Ends (.error u : Exec α) :=
  ⟨by simpa using h⟩
theorem ends_bind {α β : Type} {x : Exec α} {f : α → Exec β} (h : Ends x)
    (hf : ∀ a, x = .ok a → Ends (f a)) : Ends (x >>= f) := by
  cases x with
  | error e => exact ⟨fun he => h.ne (by cases he; rfl)⟩
  | ok a => exact hf a rfl
theorem ends_ite {α : Type} {c : Prop} [Decidable c] {x y : Exec α} (hx : c → Ends x)
    (hy : ¬ c → Ends y) : Ends (if c then x else y) := by
  by_cases h : c
  · rw [if_pos h]; exact hx h
  · rw [if_neg h]; exact hy h

theorem ends_of_bind {α β : Type} {x : Exec α} {f : α → Exec β} (h : Ends (x >>= f)) {a : α}
    (hx : x = .ok a) : Ends (f a) := by
  subst hx; exact h

/-- Two continuations that agree where the first one ends. -/
theorem bind_agree {α β : Type} {x : Exec α} {f g : α → Exec β} (h : Ends (x >>= f))
    (hfg : ∀ a, x = .ok a → Ends (f a) → g a = f a) : (x >>= g) = (x >>= f) := by
  cases x with
  | error e => rfl
  | ok a => exact hfg a rfl h

theorem ite_agree {α : Type} {c : Prop} [Decidable c] {x y z : Exec α}
    (h : Ends (if c then x else y)) (hy : ¬ c → Ends y → z = y) :
    (if c then x else z) = (if c then x else y) := by
  by_cases hc : c
  · rw [if_pos hc, if_pos hc]
  · rw [if_neg hc] at h
    rw [if_neg hc, if_neg hc, hy hc h]

/-- Take a computation apart. -/
syntax "ends" ("[" term,* "]")? : tactic
macro_rules
  | `(tactic| ends) => `(tactic| ends [])
  | `(tactic| ends [$ts,*]) => do
    let alts ← ts.getElems.mapM fun t => `(tactic| with_reducible apply $t)
    `(tactic| repeat' first
      | with_reducible exact ends_ok _ | with_reducible exact ends_pure _
      | with_reducible exact ends_error (by decide)
      | with_reducible assumption
      $[| $alts:tactic]*
      | (with_reducible apply ends_bind) | (with_reducible apply ends_ite)
      | intro _ | split | dsimp only)

theorem byteAt_ends (v : Iovec) (i : Nat) : Ends (v.byteAt i) := by
  unfold Iovec.byteAt; ends
theorem read_ends (v : Iovec) (i n : Nat) : Ends (v.read i n) := by
  unfold Iovec.read; ends
theorem slice_ends (v : Iovec) (i n : Nat) : Ends (v.slice i n) := by
  unfold Iovec.slice; ends
theorem writeAt_ends (b : Bytes) (i : Nat) (d : Bytes) : Ends (writeAt b i d) := by
  unfold writeAt; ends
theorem subSize_ends (a b : Nat) : Ends (subSize a b) := by
  unfold subSize; ends

namespace Aead

theorem setAad_ends (f : EvpFault) (k : Nat) (c : Ctx) (vs : List Iovec) :
    Ends (setAad f k c vs) := by
  induction vs generalizing k c with
  | nil => unfold setAad; ends
  | cons v vs ih => unfold setAad; ends [ih]

theorem encLoop_ends (L : Lib) (f : EvpFault) (k : Nat) (c : Ctx) (out : Bytes) (off rem : Nat)
    (vs : List Iovec) : Ends (encLoop L f k c out off rem vs) := by
  induction vs generalizing k c out off rem with
  | nil => unfold encLoop; ends
  | cons v vs ih => unfold encLoop; ends [ih, writeAt_ends, subSize_ends]

theorem decLoop_ends (L : Lib) (f : EvpFault) (k : Nat) (c : Ctx) (out : Bytes)
    (off rem total : Nat) (cur : Bytes) (vs : List Iovec) :
    Ends (decLoop L f k c out off rem total cur vs) := by
  induction vs generalizing k c out off rem total cur with
  | nil => unfold decLoop; ends
  | cons v vs ih => unfold decLoop; ends [ih, writeAt_ends, subSize_ends]

theorem tagAppend_ends (t w : Bytes) : Ends (tagAppend t w) := by
  unfold tagAppend; ends

theorem gatherTag_ends (t : Bytes) (vs : List Iovec) : Ends (gatherTag t vs) := by
  induction vs generalizing t with
  | nil => unfold gatherTag; ends
  | cons v vs ih => unfold gatherTag; ends [ih, read_ends, tagAppend_ends]

theorem evpEncrypt_ends (L : Lib) (f : EvpFault) (alg : Alg) (key nonce : Bytes)
    (aad pt : List Iovec) (out : Iovec) : Ends (evpEncrypt L f alg key nonce aad pt out) := by
  unfold evpEncrypt; ends [setAad_ends, encLoop_ends, writeAt_ends, subSize_ends]

theorem evpDecrypt_ends (L : Lib) (f : EvpFault) (alg : Alg) (key nonce : Bytes)
    (aad pt : List Iovec) (out : Iovec) : Ends (evpDecrypt L f alg key nonce aad pt out) := by
  unfold evpDecrypt; ends [setAad_ends, decLoop_ends, tagAppend_ends, gatherTag_ends, subSize_ends]

theorem boringEncrypt_ends (L : Lib) (f : EvpFault) (alg : Alg) (key nonce : Bytes)
    (aad pt : List Iovec) (out : Iovec) : Ends (boringEncrypt L f alg key nonce aad pt out) := by
  unfold boringEncrypt; ends [writeAt_ends, subSize_ends]

theorem boringDecrypt_ends (L : Lib) (f : EvpFault) (alg : Alg) (key nonce : Bytes)
    (aad pt : List Iovec) (out : Iovec) : Ends (boringDecrypt L f alg key nonce aad pt out) := by
  unfold boringDecrypt; ends [writeAt_ends, subSize_ends]

theorem encrypt_ends (L : Lib) (f : EvpFault) (c : Crypter) (nonce : Bytes)
    (aad pt : List Iovec) (out : Iovec) : Ends (c.encrypt L f nonce aad pt out) := by
  unfold Crypter.encrypt; ends [boringEncrypt_ends, evpEncrypt_ends]

theorem decrypt_ends (L : Lib) (f : EvpFault) (c : Crypter) (nonce : Bytes)
    (aad pt : List Iovec) (out : Iovec) : Ends (c.decrypt L f nonce aad pt out) := by
  unfold Crypter.decrypt; ends [boringDecrypt_ends, evpDecrypt_ends]

end Aead

namespace Hkdf

theorem todoLen_ends (a b c : Nat) : Ends (todoLen a b c) := by
  unfold todoLen; ends [subSize_ends]

theorem loop_ends (L : Lib) (h : HashFn) (f : HkdfFault) (prk info : Bytes) (m i : Nat)
    (b : Bytes) (d : Nat) (out : Bytes) : Ends (loop L h f prk info m i b d out) := by
  induction m generalizing i b d out with
  | zero => unfold loop; ends
  | succ m ih => unfold loop; ends [ih, todoLen_ends, writeAt_ends]

theorem deriveSecret_ends (L : Lib) (f : HkdfFault) (h : HashFn) (prk info out : Bytes) :
    Ends (deriveSecret L f h prk info out) := by
  unfold deriveSecret derivation; ends [loop_ends]

end Hkdf

namespace HalfConn

theorem advanceSecret_ends (L : Lib) (f : HkdfFault) (cs : Ciphersuite) (s : Bytes) :
    Ends (advanceSecret L f cs s) := by
  unfold advanceSecret; ends [Hkdf.deriveSecret_ends]

theorem deriveKey_ends (L : Lib) (f : HkdfFault) (cs : Ciphersuite) (s o : Bytes) :
    Ends (deriveKey L f cs s o) := by
  unfold deriveKey deriveLabel; ends [Hkdf.deriveSecret_ends]

theorem deriveNonce_ends (L : Lib) (f : HkdfFault) (cs : Ciphersuite) (s o : Bytes) :
    Ends (deriveNonce L f cs s o) := by
  unfold deriveNonce deriveLabel; ends [Hkdf.deriveSecret_ends]

theorem create_ends (L : Lib) (f : KeyFault) (cs : Ciphersuite) (n : UInt64) (s : Bytes) :
    Ends (create L f cs n s) := by
  unfold create; ends [deriveKey_ends, deriveNonce_ends]

theorem nonceMask_ends (hc : HalfConn) : Ends hc.nonceMask := by
  unfold nonceMask; ends [subSize_ends]

theorem encrypt_ends (L : Lib) (f : EvpFault) (hc : HalfConn) (aad pt : List Iovec) (out : Iovec) :
    Ends (hc.encrypt L f aad pt out) := by
  unfold encrypt; ends [nonceMask_ends, Aead.encrypt_ends]

theorem decrypt_ends (L : Lib) (f : EvpFault) (hc : HalfConn) (aad pt : List Iovec) (out : Iovec) :
    Ends (hc.decrypt L f aad pt out) := by
  unfold decrypt; ends [nonceMask_ends, Aead.decrypt_ends]

theorem updateKey_ends (L : Lib) (f : KeyFault) (hc : HalfConn) : Ends (hc.updateKey L f) := by
  unfold updateKey; ends [advanceSecret_ends, deriveKey_ends, deriveNonce_ends]

end HalfConn

namespace Handler

theorem process_ends {h : Handler} (s : Safe h) (b : Bytes) : Ends (h.process b) := by
  rcases s.process b with e | ⟨_, _, e, _⟩
  · rw [e]; exact ends_error (by decide)
  · rw [e]; exact ends_ok _

theorem loop_more (fuel : Nat) (h : Handler) (rest : Bytes) (ku tk : Bool)
    (he : Ends (loop fuel h rest ku tk)) :
    loop (fuel + 1) h rest ku tk = loop fuel h rest ku tk := by
  induction fuel generalizing h rest ku tk with
  | zero => exact absurd rfl he.ne
  | succ fuel ih =>
    unfold loop at he ⊢
    refine ite_agree he fun _ he => ?_
    refine bind_agree he fun x _ he => ?_
    refine bind_agree he fun t _ he => ?_
    dsimp only at he ⊢
    by_cases h24 : t = kKeyUpdateType
    · rw [if_pos h24] at he ⊢
      rw [if_pos h24]
      cases hf : x.2.2 with
      | true => simp only [if_true]
      | false =>
        simp only [hf, Bool.false_eq_true, if_false] at he ⊢
        exact ih _ _ _ _ he
    · rw [if_neg h24] at he ⊢
      rw [if_neg h24]
      by_cases h4 : t = kTicketType
      · rw [if_pos h4] at he ⊢
        rw [if_pos h4]
        cases hf : x.2.2 with
        | true =>
          simp only [hf, if_true] at he ⊢
          by_cases hig : x.1.ignoreFuture = true
          · rw [if_pos hig] at he ⊢
            rw [if_pos hig]
            exact bind_agree he fun y _ he => ih _ _ _ _ he
          · rw [if_neg hig] at he ⊢
            rw [if_neg hig]
            exact bind_agree he fun y _ he => ih _ _ _ _ he
        | false =>
          simp only [hf, Bool.false_eq_true, if_false] at he ⊢
          exact ih _ _ _ _ he
      · rw [if_neg h4, if_neg h4]

theorem messageType_ends (h : Handler) : Ends h.messageType := by
  unfold messageType; ends

theorem getStoredTickets_ends (h : Handler) : Ends h.getStoredTickets := by
  unfold getStoredTickets; ends [messageType_ends]

end Handler

namespace Record

theorem create_ends (L : Lib) (fi fo : KeyFault) (a : CreateArgs) : Ends (create L fi fo a) := by
  unfold create; ends [HalfConn.create_ends]

theorem protect_ends (L : Lib) (f : EvpFault) (c : Conn) (rt : RecordType) (pt : List Iovec)
    (rec : Iovec) : Ends (protect L f c rt pt rec) := by
  unfold protect; ends [writeAt_ends, slice_ends, HalfConn.encrypt_ends]

theorem lastNonzero_ends (b : Bytes) (n : Nat) : Ends (lastNonzero b n) := by
  induction n with
  | zero => unfold lastNonzero; ends
  | succ n ih => unfold lastNonzero; ends

theorem retrieveAndSend_ends (c : Conn) : Ends (retrieveAndSend c) := by
  unfold retrieveAndSend; ends [Handler.getStoredTickets_ends]

theorem handleTickets_ends (c : Conn) (r : Handler.Result) : Ends (handleTickets c r) := by
  unfold handleTickets; ends [retrieveAndSend_ends]

theorem handleResult_ends (L : Lib) (f : KeyFault) (c : Conn)
    (r : Except StatusCode Handler.Result) : Ends (handleResult L f c r) := by
  unfold handleResult; ends [HalfConn.updateKey_ends, handleTickets_ends]

theorem zeroOut_ends (v : Iovec) : Ends (zeroOut v) := by
  unfold zeroOut; ends

theorem dispatch_ends (L : Lib) (f : KeyFault) (c : Conn) (hs : Handler.Safe c.handler)
    (call : Option HalfConn.AeadCall) (pt : Bytes) (w : Nat) : Ends (dispatch L f c call pt w) := by
  unfold dispatch
  ends [lastNonzero_ends, Handler.process_ends hs, handleResult_ends, retrieveAndSend_ends]

theorem unprotect_ends (L : Lib) (f : Fault) (c : Conn) (hs : Handler.Safe c.handler)
    (header : Iovec) (payload : List Iovec) (out : Iovec) :
    Ends (unprotect L f c header payload out) := by
  unfold unprotect
  ends [HalfConn.decrypt_ends, zeroOut_ends, dispatch_ends]

theorem updateOutboundKey_ends (L : Lib) (f : KeyFault) (c : Conn) :
    Ends (updateOutboundKey L f c) := by
  unfold updateOutboundKey; ends [HalfConn.updateKey_ends]

end Record

namespace Frame
open HalfConn (exec_bind_eq_ok)

theorem readHeader_ends (k i : Nat) (vs : List Iovec) (on : Nat) : Ends (readHeader k i vs on) := by
  induction k generalizing i vs on with
  | zero => unfold readHeader; ends
  | succ k ih =>
    cases vs with
    | nil => unfold readHeader; ends
    | cons v vs => unfold readHeader; ends [byteAt_ends, ih]

theorem isolate_ends (vs : List Iovec) (on rem : Nat) : Ends (isolate vs on rem) := by
  induction vs generalizing on rem with
  | nil => cases rem <;> (unfold isolate; ends)
  | cons v vs ih =>
    cases rem with
    | zero => unfold isolate; ends
    | succ rem => unfold isolate; ends [subSize_ends, slice_ends, ih]

theorem collect_ends (vs : List Iovec) (on need : Nat) : Ends (collect vs on need) := by
  induction vs generalizing on need with
  | nil => cases need <;> (unfold collect; ends)
  | cons v vs ih =>
    cases need with
    | zero => unfold collect; ends
    | succ need => unfold collect; ends [subSize_ends, slice_ends, ih]

theorem create_ends (L : Lib) (fi fo : KeyFault) (o : Options) : Ends (create L fi fo o) := by
  unfold create; ends [Record.create_ends]

theorem crypterProtect_ends (L : Lib) (f : EvpFault) (s : State) (pt : List Iovec) (rec : Iovec) :
    Ends (s.crypterProtect L f pt rec) := by
  unfold State.crypterProtect; ends [Record.protect_ends]

theorem crypterUnprotect_ends (L : Lib) (f : Record.Fault) (s : State)
    (hs : Handler.Safe s.conn.handler) (hd : Bytes) (pl : List Iovec) (out : Iovec) :
    Ends (s.crypterUnprotect L f hd pl out) := by
  unfold State.crypterUnprotect; ends [Record.unprotect_ends L _ _ hs]

theorem protectLoop_ends (L : Lib) (f : Nat → EvpFault) (id : BufId) (fuel i : Nat) (s : State)
    (vs : List Iovec) (on : Nat) (first : Bool) (rem idx : Nat) (out : Iovec)
    (h : rem + (if first then 1 else 0) < fuel) :
    Ends (protectLoop L f id fuel i s vs on first rem idx out) := by
  induction fuel generalizing i s vs on first rem idx out with
  | zero => omega
  | succ fuel ih =>
    unfold protectLoop
    apply ends_ite
    · intro hc
      apply ends_bind (collect_ends _ _ _)
      intro x _
      apply ends_bind (subSize_ends _ _)
      intro room _
      apply ends_bind (slice_ends _ _ _)
      intro slot _
      apply ends_bind (crypterProtect_ends _ _ _ _ _)
      intro y _
      dsimp only
      apply ends_ite
      · intro _; exact ends_pure _
      intro _
      apply ends_ite
      · intro _; exact ends_pure _
      intro _
      apply ih
      simp only [Bool.or_eq_true, decide_eq_true_eq] at hc
      simp only [Bool.false_eq_true, if_false]
      cases first with
      | true => simp only [if_true] at h; omega
      | false =>
        simp only [Bool.false_eq_true, if_false, false_or] at h hc
        by_cases hk : rem < kMaxPlaintext
        · rw [if_pos hk]; omega
        · rw [if_neg hk]; simp only [kMaxPlaintext] at hk ⊢; omega
    · intro _; exact ends_pure _

/-- What holds of the connection under every state during a call. -/
theorem unprotectLoop_stops (L : Lib) (A : Allocator) (a : Record.CreateArgs)
    (f : Nat → Record.Fault) (fuel i : Nat) (s : State) (hr : Record.Reach L a s.conn s.evs)
    (vs : List Iovec) (on rem : Nat) (done : List (BufId × Bytes)) (h : rem < fuel) :
    Ends (unprotectLoop L A f fuel i s vs on rem done) := by
  induction fuel generalizing i s vs on rem done with
  | zero => omega
  | succ fuel ih =>
    unfold unprotectLoop
    apply ends_ite
    · intro hge
      apply ends_bind (readHeader_ends _ _ _ _)
      intro x _
      split
      · exact ends_pure _
      apply ends_bind (isolate_ends _ _ _)
      intro y _
      split
      · exact ends_pure _
      dsimp only [State.alloc]
      generalize hq : ({ s with next := s.next + 1, mem := _ } : State) = q
      have hqr : Record.Reach L a q.conn q.evs := by rw [← hq]; exact hr
      apply ends_bind (crypterUnprotect_ends _ _ _ hqr.safe _ _ _)
      intro z hz
      obtain ⟨s1, r⟩ := z
      dsimp only
      apply ends_ite
      · intro _; exact ends_pure _
      intro _
      apply ends_bind (subSize_ends _ _)
      intro rem' hrem
      apply ih
      · obtain ⟨⟨o, e, q1, q2⟩, _⟩ := crypterUnprotect_steps hz
        have := hqr.run q1
        rw [q2]; exact this
      · have h22 : s.conn.recordOverhead = 22 := Record.recordOverhead_eq _
        unfold subSize at hrem
        split at hrem
        · cases hrem; simp only [kHeaderLength] at *; omega
        · cases hrem
    · intro _; exact ends_pure _

theorem step_ends (L : Lib) (A : Allocator) (a : Record.CreateArgs) (s : State)
    (hr : Record.Reach L a s.conn s.evs) (op : Op) : Ends (step L A s op) := by
  cases op with
  | protect f vs =>
    unfold step protect protectInto
    dsimp only [State.alloc]
    apply ends_bind
    · apply ends_bind
      · apply protectLoop_ends
        split <;> omega
      · ends
    · ends
  | protectInto f vs out =>
    unfold step protectInto
    apply ends_bind
    · apply protectLoop_ends
      split <;> omega
    · ends
  | unprotect f vs =>
    unfold step unprotect
    apply ends_bind
    · apply ends_ite
      · ends
      · intro _
        exact unprotectLoop_stops L A a f _ _ s hr _ _ _ _ (by omega)
    · ends
  | unprotectInto f vs out =>
    unfold step unprotectInto
    ends [readHeader_ends, isolate_ends, crypterUnprotect_ends L _ _ hr.safe]

/-! ### More iterations change nothing -/

theorem protectLoop_more (L : Lib) (f : Nat → EvpFault) (id : BufId) (fuel i : Nat) (s : State)
    (vs : List Iovec) (on : Nat) (first : Bool) (rem idx : Nat) (out : Iovec)
    (h : Ends (protectLoop L f id fuel i s vs on first rem idx out)) :
    protectLoop L f id (fuel + 1) i s vs on first rem idx out =
      protectLoop L f id fuel i s vs on first rem idx out := by
  induction fuel generalizing i s vs on first rem idx out with
  | zero => exact absurd rfl h.ne
  | succ fuel ih =>
    rw [show protectLoop L f id (fuel + 1 + 1) i s vs on first rem idx out = _ from rfl]
    unfold protectLoop at h ⊢
    by_cases hc : (first || decide (rem > 0)) = true
    · rw [if_pos hc] at h ⊢
      rw [if_pos hc]
      dsimp only at h ⊢
      refine bind_agree h fun x _ h => ?_
      refine bind_agree h fun room _ h => ?_
      refine bind_agree h fun slot _ h => ?_
      refine bind_agree h fun y _ h => ?_
      refine ite_agree h fun _ h => ?_
      refine ite_agree h fun _ h => ?_
      exact ih _ _ _ _ _ _ _ _ h
    · rw [if_neg hc, if_neg hc]

theorem unprotectLoop_more (L : Lib) (A : Allocator) (f : Nat → Record.Fault) (fuel i : Nat)
    (s : State) (vs : List Iovec) (on rem : Nat) (done : List (BufId × Bytes))
    (h : Ends (unprotectLoop L A f fuel i s vs on rem done)) :
    unprotectLoop L A f (fuel + 1) i s vs on rem done =
      unprotectLoop L A f fuel i s vs on rem done := by
  induction fuel generalizing i s vs on rem done with
  | zero => exact absurd rfl h.ne
  | succ fuel ih =>
    unfold unprotectLoop at h ⊢
    by_cases hc : rem ≥ s.conn.recordOverhead
    · rw [if_pos hc] at h ⊢
      rw [if_pos hc]
      dsimp only at h ⊢
      refine bind_agree h fun x _ h => ?_
      split at h
      · rfl
      refine bind_agree h fun y _ h => ?_
      split at h
      · rfl
      refine bind_agree h fun z _ h => ?_
      refine ite_agree h fun _ h => ?_
      refine bind_agree h fun r _ h => ?_
      exact ih _ _ _ _ _ _ h
    · rw [if_neg hc, if_neg hc]

/-! ### How often the crypter is called -/

theorem slice_len {v w : Iovec} {i n : Nat} (h : v.slice i n = .ok w) : w.len = n := by
  unfold Iovec.slice at h
  split at h
  · split at h
    · cases h; rfl
    · cases h
  · split at h
    · next d hle => cases h; simp only [Iovec.len, List.length_take, List.length_drop]; omega
    · cases h

theorem isolate_total {vs : List Iovec} {on rem : Nat} {ps vs' : List Iovec} {on' : Nat}
    (h : isolate vs on rem = .ok (.ok (ps, vs', on'))) : totalLen ps = rem := by
  induction vs generalizing on rem ps with
  | nil =>
    cases rem with
    | zero => unfold isolate at h; cases h; rfl
    | succ rem => unfold isolate at h; cases h
  | cons v vs ih =>
    cases rem with
    | zero => unfold isolate at h; cases h; rfl
    | succ rem =>
      unfold isolate at h
      split at h
      · cases h
      simp only [exec_bind_eq_ok] at h
      obtain ⟨left, h1, piece, h2, h3⟩ := h
      have hp := slice_len h2
      unfold subSize at h1
      split at h1
      case isFalse => cases h1
      cases h1
      split at h3
      · simp only [exec_bind_eq_ok] at h3
        obtain ⟨x, h4, h5⟩ := h3
        split at h5
        · cases h5
        · cases h5
          have := ih h4
          rw [totalLen_cons, this, hp]
          omega
      · cases h3
        rw [totalLen_cons, totalLen_nil, hp]
        omega

theorem readHeader_length {k i : Nat} {vs : List Iovec} {on : Nat} {hd : Bytes} {vs' : List Iovec}
    {on' : Nat} (h : readHeader k i vs on = .ok (.ok (hd, vs', on'))) : hd.length = k := by
  induction k generalizing i vs on hd with
  | zero => unfold readHeader at h; cases h; rfl
  | succ k ih =>
    cases vs with
    | nil => unfold readHeader at h; cases h
    | cons v vs =>
      unfold readHeader at h
      split at h
      · cases h
      simp only [exec_bind_eq_ok] at h
      obtain ⟨b, _, h⟩ := h
      split at h
      · cases h
      simp only [exec_bind_eq_ok] at h
      obtain ⟨x, h1, h2⟩ := h
      split at h2
      · cases h2
      · cases h2
        simp [ih h1]

theorem protectLoop_work (L : Lib) (f : Nat → EvpFault) (id : BufId) (fuel i : Nat) (s s' : State)
    (vs : List Iovec) (on : Nat) (first : Bool) (rem idx : Nat) (out out' : Iovec) (st : StatusCode)
    (h : protectLoop L f id fuel i s vs on first rem idx out = .ok (s', st, out')) :
    ∃ new, s'.evs = s.evs ++ new ∧
      new.length ≤ max (if first then 1 else 0) ((rem + 16383) / 16384) := by
  induction fuel generalizing i s vs on first rem idx out with
  | zero => cases h
  | succ fuel ih =>
    unfold protectLoop at h
    split at h
    case isFalse => cases h; exact ⟨[], by simp, by simp⟩
    next hc =>
    simp only [exec_bind_eq_ok] at h
    have hmin : (if rem < kMaxPlaintext then rem else kMaxPlaintext) = min rem 16384 := by
      simp only [kMaxPlaintext]; split <;> omega
    rw [hmin] at h
    obtain ⟨x, _, room, _, slot, _, ⟨s1, r⟩, h1, h2⟩ := h
    have he : s1.evs = s.evs ++ [.sealed r] := by
      simp only [State.crypterProtect, exec_bind_eq_ok] at h1
      obtain ⟨⟨c, r'⟩, _, h1⟩ := h1
      cases h1
      rfl
    have h1le : 1 ≤ max (if first then 1 else 0) ((rem + 16383) / 16384) := by
      simp only [Bool.or_eq_true, decide_eq_true_eq] at hc
      rcases hc with hc | hc
      · rw [hc]; simp only [if_true]; omega
      · omega
    dsimp only at h2
    split at h2
    · cases h2; exact ⟨[.sealed r], he, h1le⟩
    split at h2
    · cases h2; exact ⟨[.sealed r], he, h1le⟩
    obtain ⟨new, g1, g2⟩ := ih _ _ _ _ _ _ _ _ h2
    refine ⟨.sealed r :: new, by rw [g1, he]; simp, ?_⟩
    simp only [Bool.false_eq_true, if_false, List.length_cons] at g2 ⊢
    omega

theorem unprotectLoop_work (L : Lib) (A : Allocator) (f : Nat → Record.Fault)
    (fuel i : Nat) (s s' : State) (vs : List Iovec) (on rem : Nat) (done : List (BufId × Bytes))
    (res : Result) (h : unprotectLoop L A f fuel i s vs on rem done = .ok (s', res)) :
    ∃ new, s'.evs = s.evs ++ new ∧ 22 * new.length ≤ rem := by
  induction fuel generalizing i s vs on rem done with
  | zero => cases h
  | succ fuel ih =>
    have h22 : s.conn.recordOverhead = 22 := Record.recordOverhead_eq _
    unfold unprotectLoop at h
    split at h
    case isFalse => cases h; exact ⟨[], by simp, by simp⟩
    next hge =>
    simp only [exec_bind_eq_ok] at h
    obtain ⟨x, hx, h⟩ := h
    split at h
    · cases h; exact ⟨[], by simp, by simp⟩
    simp only [exec_bind_eq_ok] at h
    obtain ⟨y, hy, h⟩ := h
    split at h
    · cases h; exact ⟨[], by simp, by simp⟩
    simp only [exec_bind_eq_ok, State.alloc, State.crypterUnprotect] at h
    obtain ⟨⟨s1, r⟩, ⟨⟨c, r1⟩, hu, hz⟩, h⟩ := h
    cases hz
    dsimp only at h
    split at h
    · cases h
      refine ⟨[.opened r1], ?_, by simp; omega⟩
      rw [destroyAll_eq]; rfl
    next hcode =>
    simp only [exec_bind_eq_ok] at h
    obtain ⟨rem', hrem, h⟩ := h
    obtain ⟨new, g1, g2⟩ := ih _ _ _ _ _ _ h
    refine ⟨.opened r1 :: new, by rw [g1]; simp, ?_⟩
    have hmin := unprotect_ok_min hu (Decidable.not_not.1 hcode)
    rw [readHeader_length hx, isolate_total hy] at hmin
    unfold subSize at hrem
    split at hrem
    · cases hrem
      simp only [kHeaderLength, List.length_cons] at *
      omega
    · cases hrem

end Frame
end S2A
