import Verif.Spec.IntCast
import Verif.Lemmas.Size64
import Verif.Lemmas.FrameAdversary
/-
Lemmas for C115 and C116.
-/
namespace S2A
open Spec (noAad noUpdate onMachine)

theorem throughInt_little {v : Nat} (h : v < 2 ^ 32) : throughInt .little v = v := by
  simp only [throughInt, readSize, intBytes, zeros, List.replicate, List.cons_append,
    List.nil_append, List.foldr_cons, List.foldr_nil, UInt8.toNat_ofNat', UInt8.toNat_zero]
  omega

theorem throughInt_big {v : Nat} (h : v < 2 ^ 32) : throughInt .big v = v * 2 ^ 32 := by
  simp only [throughInt, readSize, intBytes, zeros, List.replicate, List.cons_append,
    List.nil_append, List.foldl_cons, List.foldl_nil, UInt8.toNat_ofNat', UInt8.toNat_zero]
  omega

theorem toInt_small {n : Nat} (h : n < 2 ^ 31) : toInt n = some n := by
  unfold toInt
  rw [Nat.mod_eq_of_lt (by omega), if_pos h]

theorem toInt_some {n m : Nat} (h : toInt n = some m) : m = n % 2 ^ 32 ∧ m < 2 ^ 31 := by
  unfold toInt at h
  split at h
  · cases h; exact ⟨rfl, by assumption⟩
  · cases h

namespace Aead

/-- The failures in `Encrypt` that a machine amounts to. -/
def encFault : ByteOrder → EvpFault → EvpFault
  | .little, f => f
  | .big, f => noAad f

/-- The failures in `Decrypt` that a machine amounts to. -/
def decFault : ByteOrder → EvpFault → EvpFault
  | .little, f => f
  | .big, f => noUpdate f

private theorem intLens_cons {v : Iovec} {vs : List Iovec} (h : IntLens (v :: vs)) :
    v.len < intBound ∧ IntLens vs :=
  ⟨h v (by simp), fun w hw => h w (by simp [hw])⟩

theorem setAadI_eq (o : ByteOrder) (f g : EvpFault) (vs : List Iovec) (h : IntLens vs)
    (hg : g.aad = match o with | .little => f.aad | .big => fun _ => true) (k : Nat) (c : Ctx) :
    setAadI o f k c vs = setAad g k c vs := by
  induction vs generalizing k c with
  | nil => rfl
  | cons v vs ih =>
    obtain ⟨hv, hvs⟩ := intLens_cons h
    unfold setAadI setAad
    split
    · exact ih hvs _ _
    · next hne =>
      cases v with
      | null n => rfl
      | buf d =>
        simp only [Iovec.len] at hv hne
        simp only [toInt_small hv]
        rw [if_neg (show ¬ intBound ≤ d.length by omega)]
        cases o with
        | little =>
          rw [hg, throughInt_little (Nat.lt_trans hv (by decide)), List.take_length]
          simp only [ne_eq, not_true_eq_false, if_false]
          rw [ih hvs]
        | big =>
          have : throughInt .big d.length ≠ d.length := by
            rw [throughInt_big (Nat.lt_trans hv (by decide))]; omega
          rw [hg]
          simp only [this, ne_eq, not_false_eq_true, if_true, ite_self]

theorem encLoopI_eq (L : Lib) (f g : EvpFault) (hg : g.update = f.update) (vs : List Iovec)
    (h : IntLens vs) (k : Nat) (c : Ctx) (out : Bytes) (off rem : Nat) :
    encLoopI L f k c out off rem vs = encLoop L g k c out off rem vs := by
  induction vs generalizing k c out off rem with
  | nil => rfl
  | cons v vs ih =>
    obtain ⟨hv, hvs⟩ := intLens_cons h
    unfold encLoopI encLoop
    split
    · exact ih hvs _ _ _ _ _
    · cases v with
      | null n => rfl
      | buf d =>
        simp only [Iovec.len] at hv
        simp only [toInt_small hv, List.take_length]
        rw [if_neg (show ¬ intBound ≤ d.length by omega), hg]
        simp only [ih hvs]

theorem evpEncryptI_eq (o : ByteOrder) (L : Lib) (f : EvpFault) (alg : Alg) (key nonce : Bytes)
    (aad pt : List Iovec) (out : Iovec) (ha : IntLens aad) (hp : IntLens pt) :
    evpEncryptI o L f alg key nonce aad pt out =
      evpEncrypt L (encFault o f) alg key nonce aad pt out := by
  unfold evpEncryptI evpEncrypt
  have e1 : ∀ k c, setAadI o f k c aad = setAad (encFault o f) k c aad :=
    setAadI_eq o f _ aad ha (by cases o <;> rfl)
  have e2 : ∀ k c ob off rem, encLoopI L f k c ob off rem pt =
      encLoop L (encFault o f) k c ob off rem pt :=
    encLoopI_eq L f _ (by cases o <;> rfl) pt hp
  simp only [e1, e2]
  have h1 : (encFault o f).init = f.init := by cases o <;> rfl
  have h2 : (encFault o f).final = f.final := by cases o <;> rfl
  have h3 : (encFault o f).tag = f.tag := by cases o <;> rfl
  rw [h1, h2, h3]
  rfl

private theorem writeAt_room {b : Bytes} {off : Nat} {w : Bytes} (h : off + w.length ≤ b.length) :
    ∃ b', writeAt b off w = .ok b' ∧ b'.length = b.length := by
  refine ⟨_, if_pos h, ?_⟩
  simp only [List.length_append, List.length_take, List.length_drop]
  omega

private theorem decUpdate_length (L : Lib) (c : Ctx) (d : Bytes) : (c.decUpdate L d).1.length = d.length := by
  simp [Ctx.decUpdate]

theorem decLoopI_little (L : Lib) (f : EvpFault) (vs : List Iovec)
    (h : IntLens vs) (k : Nat) (c : Ctx) (out : Bytes) (off rem total : Nat) (cur : Bytes) :
    decLoopI .little L f k c out off rem total cur vs = decLoop L f k c out off rem total cur vs := by
  induction vs generalizing k c out off rem total cur with
  | nil => rfl
  | cons v vs ih =>
    obtain ⟨hv, hvs⟩ := intLens_cons h
    unfold decLoopI decLoop
    split
    · rfl
    split
    · exact ih hvs _ _ _ _ _ _ _
    · cases v with
      | null n => rfl
      | buf d =>
        simp only [Iovec.len] at hv
        simp only
        generalize hb : (if d.length > total - kTagSize then total - kTagSize else d.length) = b
        have hle : b ≤ d.length := by subst hb; split <;> omega
        have hlt : b < 2 ^ 31 := Nat.lt_of_le_of_lt hle hv
        have ht : throughInt .little b = b := throughInt_little (by omega)
        simp only [toInt_small hlt, ht]
        rw [if_neg (show ¬ intBound ≤ b from Nat.not_le.2 hlt)]
        simp only [if_neg (show ¬ b > d.length by omega)]
        have hl : (c.decUpdate L (d.take b)).1.length = b := by
          rw [decUpdate_length, List.length_take]; omega
        simp only [ih hvs, hl]

theorem decLoopI_big (L : Lib) (f : EvpFault) (vs : List Iovec)
    (h : IntLens vs) (k : Nat) (c : Ctx) (out : Bytes) (off rem total : Nat) (cur : Bytes)
    (hr : off + rem ≤ out.length) :
    decLoopI .big L f k c out off rem total cur vs =
      decLoop L (noUpdate f) k c out off rem total cur vs := by
  induction vs generalizing k c out off rem total cur with
  | nil => rfl
  | cons v vs ih =>
    obtain ⟨hv, hvs⟩ := intLens_cons h
    unfold decLoopI decLoop
    split
    · rfl
    next ht =>
    split
    · exact ih hvs _ _ _ _ _ _ _ hr
    · next hne =>
      cases v with
      | null n => rfl
      | buf d =>
        simp only [Iovec.len] at hv hne
        simp only
        generalize hb : (if d.length > total - kTagSize then total - kTagSize else d.length) = b
        have hle : b ≤ d.length ∧ 0 < b := by subst hb; split <;> omega
        have hlt : b < 2 ^ 31 := Nat.lt_of_le_of_lt hle.1 hv
        have hti : throughInt .big b = b * 2 ^ 32 := throughInt_big (by omega)
        simp only [toInt_small hlt, hti]
        split
        · rfl
        next hrem =>
        rw [if_neg (show ¬ intBound ≤ b from Nat.not_le.2 hlt)]
        have hd : d.length < 2 ^ 31 := hv
        simp only [if_pos (show b * 2 ^ 32 > d.length by omega)]
        have hl : (c.decUpdate L (d.take b)).1.length = b := by
          rw [decUpdate_length, List.length_take]; omega
        obtain ⟨b', h1, h2⟩ := writeAt_room (b := out) (off := off)
          (w := (c.decUpdate L (d.take b)).1) (by rw [hl]; omega)
        simp only [h1, exec_bind_ok, h2, noUpdate, if_true]
        split <;> rfl

theorem decLoopI_eq (o : ByteOrder) (L : Lib) (f : EvpFault) (vs : List Iovec)
    (h : IntLens vs) (k : Nat) (c : Ctx) (out : Bytes) (total : Nat) (cur : Bytes) :
    decLoopI o L f k c out 0 out.length total cur vs =
      decLoop L (decFault o f) k c out 0 out.length total cur vs := by
  cases o with
  | little => exact decLoopI_little L f vs h ..
  | big => exact decLoopI_big L f vs h k c out 0 out.length total cur (by omega)

theorem evpDecryptI_eq (o : ByteOrder) (L : Lib) (f : EvpFault) (alg : Alg) (key nonce : Bytes)
    (aad ct : List Iovec) (out : Iovec) (ha : IntLens aad) (hp : IntLens ct) :
    evpDecryptI o L f alg key nonce aad ct out =
      evpDecrypt L (decFault o f) alg key nonce aad ct out := by
  unfold evpDecryptI evpDecrypt
  have e1 : ∀ k c, setAadI o f k c aad = setAad (decFault o f) k c aad :=
    setAadI_eq o f _ aad ha (by cases o <;> rfl)
  have e2 : ∀ k c ob total cur, decLoopI o L f k c ob 0 ob.length total cur ct =
      decLoop L (decFault o f) k c ob 0 ob.length total cur ct :=
    fun k c ob total cur => decLoopI_eq o L f ct hp k c ob total cur
  simp only [e1, e2]
  have h1 : (decFault o f).init = f.init := by cases o <;> rfl
  have h2 : (decFault o f).final = f.final := by cases o <;> rfl
  have h3 : (decFault o f).tag = f.tag := by cases o <;> rfl
  rw [h1, h2, h3]
  rfl

theorem encryptI_eq (o : ByteOrder) (L : Lib) (f : EvpFault) (c : Crypter) (nonce : Bytes)
    (aad pt : List Iovec) (out : Iovec) (ha : IntLens aad) (hp : IntLens pt) :
    c.encryptI o L f nonce aad pt out = c.encrypt L (encFault o f) nonce aad pt out := by
  unfold Crypter.encryptI Crypter.encrypt
  rw [evpEncryptI_eq o L f _ _ _ _ _ _ ha hp]
  split
  · cases o <;> rfl
  · rfl

theorem decryptI_eq (o : ByteOrder) (L : Lib) (f : EvpFault) (c : Crypter) (nonce : Bytes)
    (aad ct : List Iovec) (out : Iovec) (ha : IntLens aad) (hp : IntLens ct) :
    c.decryptI o L f nonce aad ct out = c.decrypt L (decFault o f) nonce aad ct out := by
  unfold Crypter.decryptI Crypter.decrypt
  rw [evpDecryptI_eq o L f _ _ _ _ _ _ ha hp]
  split
  · cases o <;> rfl
  · rfl

theorem intLens_of_total {vs : List Iovec} (h : totalLen vs < 2 ^ 31) : IntLens vs := by
  induction vs with
  | nil => intro v hv; cases hv
  | cons v vs ih =>
    rw [totalLen_cons] at h
    intro w hw
    rcases List.mem_cons.1 hw with rfl | hw
    · exact Nat.lt_of_le_of_lt (Nat.le_add_right _ _) h
    · exact ih (by omega) w hw

end Aead

open Aead (encFault decFault IntLens)

theorem HalfConn.encryptI_eq (o : ByteOrder) (L : Lib) (f : EvpFault) (hc : HalfConn)
    (aad pt : List Iovec) (out : Iovec) (ha : IntLens aad) (hp : IntLens pt) :
    hc.encryptI o L f aad pt out = hc.encrypt L (encFault o f) aad pt out := by
  unfold HalfConn.encryptI HalfConn.encrypt
  simp only [Aead.encryptI_eq o L f _ _ _ _ _ ha hp]

theorem HalfConn.decryptI_eq (o : ByteOrder) (L : Lib) (f : EvpFault) (hc : HalfConn)
    (aad ct : List Iovec) (out : Iovec) (ha : IntLens aad) (hp : IntLens ct) :
    hc.decryptI o L f aad ct out = hc.decrypt L (decFault o f) aad ct out := by
  unfold HalfConn.decryptI HalfConn.decrypt
  simp only [Aead.decryptI_eq o L f _ _ _ _ _ ha hp]

namespace Record

theorem protectI_eq (o : ByteOrder) (L : Lib) (f : EvpFault) (c : Conn) (rt : RecordType)
    (pt : List Iovec) (record : Iovec) :
    protectI o L f c rt pt record = protect L (encFault o f) c rt pt record := by
  unfold protectI protect
  simp only
  split
  · rfl
  next hn =>
  have e : ∀ (t : UInt8) (m : Nat) (rest : Iovec),
      c.outC.encryptI o L f [.buf (headerBytes m)] (pt ++ [.buf [t]]) rest =
        c.outC.encrypt L (encFault o f) [.buf (headerBytes m)] (pt ++ [.buf [t]]) rest := by
    intro t m rest
    refine HalfConn.encryptI_eq o L f _ _ _ _ ?_ ?_
    · apply Aead.intLens_of_total; rw [totalLen_cons, totalLen_nil]; show 5 + 0 < 2 ^ 31; decide
    · apply Aead.intLens_of_total
      rw [totalLen_append, totalLen_cons, totalLen_nil]
      have hk : kMaxPlaintext = 16384 := rfl
      simp only [Iovec.len, List.length_cons, List.length_nil]
      omega
  simp only [e]
  rfl

theorem unprotectI_eq (o : ByteOrder) (L : Lib) (f : Fault) (c : Conn) (header : Iovec)
    (payload : List Iovec) (out : Iovec) :
    unprotectI o L f c header payload out =
      unprotect L { f with evp := decFault o f.evp } c header payload out := by
  unfold unprotectI unprotect
  simp only
  split
  · rfl
  split
  · rfl
  split
  · rfl
  next hn =>
  have e : c.inC.decryptI o L f.evp [header] payload out =
        c.inC.decrypt L (decFault o f.evp) [header] payload out := by
    have hk : c.recordOverhead + kMaxPlaintext = 16406 := by
      simp only [Conn.recordOverhead, HalfConn.tagLength, Aead.Crypter.tagLength]; decide
    refine HalfConn.decryptI_eq o L f.evp _ _ _ _ ?_ ?_
    · apply Aead.intLens_of_total; rw [totalLen_cons, totalLen_nil]; omega
    · apply Aead.intLens_of_total; omega
  rw [e]
  rfl

end Record

namespace Frame

/-- The failures in `Unprotect` that a machine amounts to. -/
def recFault (o : ByteOrder) (f : Record.Fault) : Record.Fault := { f with evp := decFault o f.evp }

theorem crypterProtectI_eq (o : ByteOrder) (L : Lib) (f : EvpFault) (s : State) (pt : List Iovec)
    (out : Iovec) : s.crypterProtectI o L f pt out = s.crypterProtect L (encFault o f) pt out := by
  unfold State.crypterProtectI State.crypterProtect
  rw [Record.protectI_eq]

theorem crypterUnprotectI_eq (o : ByteOrder) (L : Lib) (f : Record.Fault) (s : State) (hd : Bytes)
    (vs : List Iovec) (out : Iovec) :
    s.crypterUnprotectI o L f hd vs out = s.crypterUnprotect L (recFault o f) hd vs out := by
  unfold State.crypterUnprotectI State.crypterUnprotect
  rw [Record.unprotectI_eq]
  rfl

theorem protectLoopI_eq (o : ByteOrder) (L : Lib) (f : Nat → EvpFault) (id : BufId) (fuel i : Nat)
    (s : State) (vs : List Iovec) (on : Nat) (first : Bool) (rem idx : Nat) (out : Iovec) :
    protectLoopI o L f id fuel i s vs on first rem idx out =
      protectLoop L (fun i => encFault o (f i)) id fuel i s vs on first rem idx out := by
  induction fuel generalizing i s vs on first rem idx out with
  | zero => rw [protectLoopI.eq_def, protectLoop.eq_def]
  | succ fuel ih =>
    rw [protectLoopI.eq_def, protectLoop.eq_def]
    simp only [crypterProtectI_eq, ih]

theorem protectIntoI_eq (o : ByteOrder) (L : Lib) (f : Nat → EvpFault) (s : State) (id : BufId)
    (vs : List Iovec) (out : Iovec) :
    protectIntoI o L f s id vs out = protectInto L (fun i => encFault o (f i)) s id vs out := by
  unfold protectIntoI protectInto
  simp only [protectLoopI_eq]

theorem protectI_eq (o : ByteOrder) (L : Lib) (A : Allocator) (f : Nat → EvpFault) (s : State)
    (vs : List Iovec) :
    protectI o L A f s vs = protect L A (fun i => encFault o (f i)) s vs := by
  unfold protectI protect
  simp only [protectIntoI_eq]

theorem unprotectIntoI_eq (o : ByteOrder) (L : Lib) (f : Record.Fault) (s : State)
    (vs : List Iovec) (out : Iovec) :
    unprotectIntoI o L f s vs out = unprotectInto L (recFault o f) s vs out := by
  unfold unprotectIntoI unprotectInto
  simp only [crypterUnprotectI_eq]
  rfl

theorem unprotectLoopI_eq (o : ByteOrder) (L : Lib) (A : Allocator) (f : Nat → Record.Fault)
    (fuel i : Nat) (s : State) (vs : List Iovec) (on rem : Nat) (done : List (BufId × Bytes)) :
    unprotectLoopI o L A f fuel i s vs on rem done =
      unprotectLoop L A (fun i => recFault o (f i)) fuel i s vs on rem done := by
  induction fuel generalizing i s vs on rem done with
  | zero => rw [unprotectLoopI.eq_def, unprotectLoop.eq_def]
  | succ fuel ih =>
    rw [unprotectLoopI.eq_def, unprotectLoop.eq_def]
    simp only [crypterUnprotectI_eq, ih]
    rfl

theorem unprotectI_eq (o : ByteOrder) (L : Lib) (A : Allocator) (f : Nat → Record.Fault)
    (s : State) (vs : List Iovec) :
    unprotectI o L A f s vs = unprotect L A (fun i => recFault o (f i)) s vs := by
  unfold unprotectI unprotect
  simp only [unprotectLoopI_eq]

theorem stepI_eq (o : ByteOrder) (L : Lib) (A : Allocator) (s : State) (op : Op) :
    stepI o L A s op = step L A s (onMachine o op) := by
  cases op with
  | protect f vs =>
    cases o <;> simp only [stepI, step, onMachine, protectI_eq] <;> rfl
  | protectInto f vs out =>
    cases o <;> simp only [stepI, step, onMachine, protectIntoI_eq] <;> rfl
  | unprotect f vs =>
    cases o <;> simp only [stepI, step, onMachine, unprotectI_eq] <;> rfl
  | unprotectInto f vs out =>
    cases o <;> simp only [stepI, step, onMachine, unprotectIntoI_eq] <;> rfl

theorem runI_eq (o : ByteOrder) (L : Lib) (A : Allocator) (s : State) (ops : List Op) :
    runI o L A s ops = run L A s (ops.map (onMachine o)) := by
  induction ops generalizing s with
  | nil => rfl
  | cons op ops ih =>
    simp only [runI, List.map_cons, run, stepI_eq, ih]

end Frame
/-! ### A machine that fails on associated data -/

namespace Aead
open Spec (UsesEvp)

private theorem setAad_status {f : EvpFault} {k : Nat} {c : Ctx} {vs : List Iovec}
    (h : setAad f k c vs = .ok (.error .ok)) : False := by
  induction vs generalizing k c with
  | nil => cases h
  | cons v vs ih =>
    unfold setAad at h
    split at h
    · exact ih h
    · cases v with
      | null n => cases h
      | buf d =>
        simp only at h
        split at h
        · cases h
        split at h
        · cases h
        · exact ih h

theorem setAad_noAad (f : EvpFault) (hf : f.aad = fun _ => true) (k : Nat) (c c' : Ctx)
    (vs : List Iovec) (h : 0 < totalLen vs) : setAad f k c vs ≠ .ok (.ok c') := by
  induction vs generalizing k with
  | nil => rw [totalLen_nil] at h; omega
  | cons v vs ih =>
    rw [totalLen_cons] at h
    unfold setAad
    split
    · next h0 => exact ih _ (by omega)
    · cases v with
      | null n => simp
      | buf d =>
        simp only [hf, if_true]
        split <;> simp

theorem evpEncrypt_noAad {L : Lib} {f : EvpFault} (hf : f.aad = fun _ => true) {alg : Alg}
    {key nonce : Bytes} {aad pt : List Iovec} {out : Iovec} {r : Result} (h : 0 < totalLen aad)
    (he : evpEncrypt L f alg key nonce aad pt out = .ok r) : r.status ≠ .ok := by
  unfold evpEncrypt at he
  cases out with
  | null n => cases he
  | buf ob =>
    simp only at he
    split at he
    · cases he; simp
    split at he
    · cases he; simp
    rw [HalfConn.exec_bind_eq_ok] at he
    obtain ⟨x, h1, h2⟩ := he
    cases x with
    | error e =>
      cases h2
      intro h0
      simp only at h0
      subst h0
      exact setAad_status h1
    | ok c => exact absurd h1 (setAad_noAad f hf _ _ _ _ h)

theorem evpDecrypt_noAad {L : Lib} {f : EvpFault} (hf : f.aad = fun _ => true) {alg : Alg}
    {key nonce : Bytes} {aad ct : List Iovec} {out : Iovec} {r : Result} (h : 0 < totalLen aad)
    (he : evpDecrypt L f alg key nonce aad ct out = .ok r) : r.status ≠ .ok := by
  unfold evpDecrypt at he
  split at he
  · cases he
  simp only at he
  split at he
  · cases he; simp
  split at he
  · cases he; simp
  split at he
  · cases he; simp
  rw [HalfConn.exec_bind_eq_ok] at he
  obtain ⟨x, h1, h2⟩ := he
  cases x with
  | error e =>
    cases h2
    intro h0
    simp only at h0
    subst h0
    exact setAad_status h1
  | ok c => exact absurd h1 (setAad_noAad f hf _ _ _ _ h)

theorem encrypt_noAad {L : Lib} {f : EvpFault} (hf : f.aad = fun _ => true) {c : Crypter}
    (hc : UsesEvp L c) {nonce : Bytes} {aad pt : List Iovec} {out : Iovec} {r : Result}
    (h : 0 < totalLen aad) (he : c.encrypt L f nonce aad pt out = .ok r) : r.status ≠ .ok := by
  unfold Crypter.encrypt at he
  rw [if_neg (by simpa [UsesEvp] using hc)] at he
  exact evpEncrypt_noAad hf h he

theorem decrypt_noAad {L : Lib} {f : EvpFault} (hf : f.aad = fun _ => true) {c : Crypter}
    (hc : UsesEvp L c) {nonce : Bytes} {aad ct : List Iovec} {out : Iovec} {r : Result}
    (h : 0 < totalLen aad) (he : c.decrypt L f nonce aad ct out = .ok r) : r.status ≠ .ok := by
  unfold Crypter.decrypt at he
  rw [if_neg (by simpa [UsesEvp] using hc)] at he
  exact evpDecrypt_noAad hf h he

end Aead

namespace HalfConn
open Spec (UsesEvp)

private theorem nonceMask_aead {hc hc' : HalfConn} {n : Bytes} (h : hc.nonceMask = .ok (n, hc')) :
    hc'.aead = hc.aead := by
  unfold nonceMask at h
  rw [exec_bind_eq_ok] at h
  obtain ⟨b, _, h⟩ := h
  cases h
  rfl

theorem encrypt_noAad {L : Lib} {f : EvpFault} (hf : f.aad = fun _ => true) {hc hc' : HalfConn}
    (hu : UsesEvp L hc.aead) {aad pt : List Iovec} {out : Iovec} {call : Option AeadCall}
    {r : Aead.Result} (h : 0 < totalLen aad) (he : hc.encrypt L f aad pt out = .ok (hc', call, r)) :
    r.status ≠ .ok ∧ hc'.aead = hc.aead := by
  unfold encrypt at he
  split at he
  · cases he; exact ⟨by simp, rfl⟩
  rw [exec_bind_eq_ok] at he
  obtain ⟨⟨n, hm⟩, h1, he⟩ := he
  simp only at he
  rw [exec_bind_eq_ok] at he
  obtain ⟨r', h2, he⟩ := he
  cases he
  exact ⟨Aead.encrypt_noAad hf hu h h2, nonceMask_aead h1⟩

theorem decrypt_noAad {L : Lib} {f : EvpFault} (hf : f.aad = fun _ => true) {hc hc' : HalfConn}
    (hu : UsesEvp L hc.aead) {aad ct : List Iovec} {out : Iovec} {call : Option AeadCall}
    {r : Aead.Result} (h : 0 < totalLen aad) (he : hc.decrypt L f aad ct out = .ok (hc', call, r)) :
    r.status ≠ .ok ∧ hc'.aead = hc.aead := by
  unfold decrypt at he
  split at he
  · cases he; exact ⟨by simp, rfl⟩
  rw [exec_bind_eq_ok] at he
  obtain ⟨⟨n, hm⟩, h1, he⟩ := he
  simp only at he
  rw [exec_bind_eq_ok] at he
  obtain ⟨r', h2, he⟩ := he
  cases he
  exact ⟨Aead.decrypt_noAad hf hu h h2, nonceMask_aead h1⟩

end HalfConn

namespace Record
open Spec (UsesEvp)
open HalfConn (exec_bind_eq_ok)

private theorem convertRecordType_ne {rt : RecordType} : convertRecordType rt ≠ .error .ok := by
  unfold convertRecordType; split <;> simp

theorem protect_noAad {L : Lib} {f : EvpFault} (hf : f.aad = fun _ => true) {c c' : Conn}
    (hu : UsesEvp L c.outC.aead) {rt : RecordType} {pt : List Iovec} {record : Iovec} {r : Result}
    (he : protect L f c rt pt record = .ok (c', r)) :
    r.code ≠ .ok ∧ c'.outC.aead = c.outC.aead ∧ c'.inC = c.inC := by
  unfold protect at he
  simp only at he
  split at he
  · cases he; exact ⟨by simp, rfl, rfl⟩
  split at he
  · cases he; exact ⟨by simp, rfl, rfl⟩
  cases record with
  | null n => cases he
  | buf rb =>
    simp only at he
    rw [exec_bind_eq_ok] at he
    obtain ⟨rb', h1, he⟩ := he
    cases ht : convertRecordType rt with
    | error e =>
      rw [ht] at he
      cases he
      refine ⟨convertStatus_ne ?_, rfl, rfl⟩
      rintro rfl
      exact convertRecordType_ne ht
    | ok t =>
      rw [ht] at he
      simp only [exec_bind_eq_ok] at he
      obtain ⟨rest, h2, ⟨oc, call, ra⟩, h3, he⟩ := he
      obtain ⟨hs, ha⟩ := HalfConn.encrypt_noAad hf hu
        (by rw [totalLen_cons, totalLen_nil]; show 0 < 5 + 0; decide) h3
      simp only [ne_eq, hs, not_false_eq_true, if_true] at he
      cases he
      exact ⟨convertStatus_ne hs, ha, rfl⟩

private theorem validateHeader_len {hd : Iovec} {n : Nat} (h : validateHeader hd n = true) : hd.len = 5 := by
  unfold validateHeader at h
  split at h
  · rfl
  · cases h

theorem unprotect_noAad {L : Lib} {f : Fault} (hf : f.evp.aad = fun _ => true) {c c' : Conn}
    (hu : UsesEvp L c.inC.aead) {hd : Iovec} {pl : List Iovec} {out : Iovec} {r : Result}
    (he : unprotect L f c hd pl out = .ok (c', r)) :
    r.code ≠ .ok ∧ c'.inC.aead = c.inC.aead ∧ c'.outC = c.outC := by
  unfold unprotect at he
  simp only at he
  split at he
  · cases he; exact ⟨by simp, rfl, rfl⟩
  split at he
  · cases he; exact ⟨by simp, rfl, rfl⟩
  split at he
  · cases he; exact ⟨by simp, rfl, rfl⟩
  split at he
  · cases he; exact ⟨by simp, rfl, rfl⟩
  next hv =>
  simp only [exec_bind_eq_ok] at he
  obtain ⟨⟨ic, call, ra⟩, h3, he⟩ := he
  obtain ⟨hs, ha⟩ := HalfConn.decrypt_noAad hf hu
    (by rw [totalLen_cons, validateHeader_len (by simpa using hv)]; omega) h3
  simp only [ne_eq, hs, not_false_eq_true, if_true, exec_bind_eq_ok] at he
  obtain ⟨z, _, he⟩ := he
  cases he
  exact ⟨by simp, ha, rfl⟩

end Record

namespace Frame
open Spec (UsesEvp Refused)
open HalfConn (exec_bind_eq_ok)

private theorem convertCode_ne {e : Record.Code} (h : e ≠ .ok) : convertCode e ≠ .ok := by
  cases e <;> simp_all [convertCode]

/-- Both directions use the EVP interface. -/
def BothEvp (L : Lib) (s : State) : Prop := UsesEvp L s.conn.inC.aead ∧ UsesEvp L s.conn.outC.aead

theorem crypterProtect_noAad {L : Lib} {f : EvpFault} (hf : f.aad = fun _ => true) {s s' : State}
    (hu : BothEvp L s) {pt : List Iovec} {out : Iovec} {r : Record.Result}
    (he : s.crypterProtect L f pt out = .ok (s', r)) : r.code ≠ .ok ∧ BothEvp L s' := by
  unfold State.crypterProtect at he
  rw [exec_bind_eq_ok] at he
  obtain ⟨⟨c, r'⟩, h1, he⟩ := he
  cases he
  obtain ⟨h2, h3, h4⟩ := Record.protect_noAad hf hu.2 h1
  exact ⟨h2, by simp only [BothEvp, h3, h4]; exact hu⟩

theorem crypterUnprotect_noAad {L : Lib} {f : Record.Fault} (hf : f.evp.aad = fun _ => true)
    {s s' : State} (hu : BothEvp L s) {hd : Bytes} {pl : List Iovec} {out : Iovec}
    {r : Record.Result} (he : s.crypterUnprotect L f hd pl out = .ok (s', r)) :
    r.code ≠ .ok ∧ BothEvp L s' := by
  unfold State.crypterUnprotect at he
  rw [exec_bind_eq_ok] at he
  obtain ⟨⟨c, r'⟩, h1, he⟩ := he
  cases he
  obtain ⟨h2, h3, h4⟩ := Record.unprotect_noAad hf hu.1 h1
  exact ⟨h2, by simp only [BothEvp, h3, h4]; exact hu⟩

theorem protectInto_noAad {L : Lib} {f : Nat → EvpFault} (hf : ∀ i, (f i).aad = fun _ => true)
    {s s' : State} (hu : BothEvp L s) {id : BufId} {vs : List Iovec} {out out' : Iovec}
    {st : StatusCode} (he : protectInto L f s id vs out = .ok (s', st, out')) :
    st ≠ .ok ∧ BothEvp L s' := by
  unfold protectInto at he
  simp only at he
  rw [protectLoop.eq_def] at he
  simp only at he
  rw [if_pos (by
    by_cases h : totalLen vs = 0
    · simp [h]
    · simp only [h, decide_false, Bool.false_or, decide_eq_true_eq]; omega)] at he
  simp only [exec_bind_eq_ok] at he
  obtain ⟨⟨ps, vs', on'⟩, h1, room, h2, slot, h3, ⟨s1, r⟩, h4, he⟩ := he
  obtain ⟨h5, h6⟩ := crypterProtect_noAad (hf 0) hu h4
  simp only [ne_eq, h5, not_false_eq_true, if_true] at he
  cases he
  exact ⟨convertCode_ne h5, h6⟩

theorem protect_noAad {L : Lib} {A : Allocator} {f : Nat → EvpFault}
    (hf : ∀ i, (f i).aad = fun _ => true) {s s' : State} (hu : BothEvp L s) {vs : List Iovec}
    {r : Result} (he : protect L A f s vs = .ok (s', r)) :
    (r.status ≠ .ok ∧ r.bytes = []) ∧ BothEvp L s' := by
  unfold protect at he
  simp only [exec_bind_eq_ok] at he
  obtain ⟨⟨s1, st, o⟩, h1, he⟩ := he
  obtain ⟨h2, h3⟩ := protectInto_noAad (s := (s.alloc A _).1) hf hu h1
  simp only [ne_eq, h2, not_false_eq_true, if_true] at he
  cases he
  exact ⟨⟨h2, rfl⟩, h3⟩

theorem unprotectInto_noAad {L : Lib} {f : Record.Fault} (hf : f.evp.aad = fun _ => true)
    {s s' : State} (hu : BothEvp L s) {vs : List Iovec} {out out' : Iovec} {n : Nat}
    {st : StatusCode} (he : unprotectInto L f s vs out = .ok (s', st, n, out')) :
    st ≠ .ok ∧ BothEvp L s' := by
  unfold unprotectInto at he
  split at he
  · cases he; exact ⟨by simp, hu⟩
  rw [exec_bind_eq_ok] at he
  obtain ⟨x, h1, he⟩ := he
  cases x with
  | error e => cases he; exact ⟨readHeader_error h1, hu⟩
  | ok x =>
    obtain ⟨hd, vs1, on1⟩ := x
    simp only at he
    rw [exec_bind_eq_ok] at he
    obtain ⟨x, h2, he⟩ := he
    cases x with
    | error e => cases he; exact ⟨isolate_error h2, hu⟩
    | ok x =>
      obtain ⟨pl, vs2, on2⟩ := x
      simp only [exec_bind_eq_ok] at he
      obtain ⟨⟨s1, r⟩, h3, he⟩ := he
      obtain ⟨h4, h5⟩ := crypterUnprotect_noAad hf hu h3
      simp only [ne_eq, h4, not_false_eq_true, if_true] at he
      cases he
      exact ⟨convertCode_ne h4, h5⟩

private theorem destroyAll_conn (s : State) (bs : List (BufId × Bytes)) :
    (s.destroyAll bs).conn = s.conn := by
  induction bs generalizing s with
  | nil => rfl
  | cons b bs ih => exact (ih _).trans rfl

theorem unprotect_noAad {L : Lib} {A : Allocator} {f : Nat → Record.Fault}
    (hf : ∀ i, (f i).evp.aad = fun _ => true) {s s' : State} (hu : BothEvp L s) {vs : List Iovec}
    {r : Result} (he : unprotect L A f s vs = .ok (s', r)) :
    (r.status ≠ .ok ∧ r.bytes = []) ∧ BothEvp L s' := by
  unfold unprotect at he
  simp only at he
  split at he
  · cases he; exact ⟨⟨by simp, rfl⟩, hu⟩
  next hn =>
  rw [unprotectLoop.eq_def] at he
  simp only at he
  rw [if_pos (by omega)] at he
  rw [exec_bind_eq_ok] at he
  obtain ⟨x, h1, he⟩ := he
  cases x with
  | error e => cases he; exact ⟨⟨readHeader_error h1, rfl⟩, hu⟩
  | ok x =>
    obtain ⟨hd, vs1, on1⟩ := x
    simp only at he
    rw [exec_bind_eq_ok] at he
    obtain ⟨x, h2, he⟩ := he
    cases x with
    | error e => cases he; exact ⟨⟨isolate_error h2, rfl⟩, hu⟩
    | ok x =>
      obtain ⟨pl, vs2, on2⟩ := x
      simp only [exec_bind_eq_ok] at he
      obtain ⟨⟨s1, r⟩, h3, he⟩ := he
      obtain ⟨h4, h5⟩ := crypterUnprotect_noAad (s := (s.alloc A _).1) (hf 0) hu h3
      simp only [ne_eq, h4, not_false_eq_true, if_true] at he
      cases he
      exact ⟨⟨convertCode_ne h4, rfl⟩, by
        simp only [BothEvp, destroyAll_conn, State.destroy]; exact h5⟩

theorem stepI_big {L : Lib} {A : Allocator} {s s' : State} (hu : BothEvp L s) {op : Op} {e : Event}
    (he : stepI .big L A s op = .ok (s', e)) : Refused e ∧ BothEvp L s' := by
  rw [stepI_eq] at he
  cases op with
  | protect f vs =>
    simp only [onMachine, step, exec_bind_eq_ok] at he
    obtain ⟨⟨s1, r⟩, h1, he⟩ := he
    cases he
    exact protect_noAad (fun _ => rfl) hu h1
  | protectInto f vs out =>
    simp only [onMachine, step, exec_bind_eq_ok] at he
    obtain ⟨⟨s1, st, o⟩, h1, he⟩ := he
    cases he
    exact protectInto_noAad (fun _ => rfl) hu h1
  | unprotect f vs =>
    simp only [onMachine, step, exec_bind_eq_ok] at he
    obtain ⟨⟨s1, r⟩, h1, he⟩ := he
    cases he
    exact unprotect_noAad (fun _ => rfl) hu h1
  | unprotectInto f vs out =>
    simp only [onMachine, step, exec_bind_eq_ok] at he
    obtain ⟨⟨s1, st, n, o⟩, h1, he⟩ := he
    cases he
    exact unprotectInto_noAad rfl hu h1

theorem runI_big {L : Lib} {A : Allocator} {s s' : State} (hu : BothEvp L s) {ops : List Op}
    {es : List Event} (he : runI .big L A s ops = .ok (s', es)) :
    es.length = ops.length ∧ ∀ e ∈ es, Refused e := by
  induction ops generalizing s es with
  | nil => cases he; simp
  | cons op ops ih =>
    simp only [runI, exec_bind_eq_ok] at he
    obtain ⟨⟨s1, e⟩, h1, ⟨s2, es1⟩, h2, he⟩ := he
    cases he
    obtain ⟨h3, h4⟩ := stepI_big hu h1
    obtain ⟨h5, h6⟩ := ih h4 h2
    refine ⟨by simp [h5], fun x hx => ?_⟩
    rcases List.mem_cons.1 hx with rfl | hx
    · exact h3
    · exact h6 x hx

end Frame
end S2A
