import Verif.Model.Size64
import Verif.Spec.Size64
import Verif.Lemmas.FrameEmpty
import Verif.Lemmas.Ends
import Verif.Props.Frame
/-
Lemmas for C114.
-/
namespace S2A
open Spec (short firstBytes)

theorem foldl_size64 (vs : List Iovec) (t : Nat) :
    vs.foldl (fun t v => size64 (t + v.len)) (size64 t) = size64 (t + totalLen vs) := by
  induction vs generalizing t with
  | nil => simp [totalLen]
  | cons v vs ih =>
    have e : size64 (size64 t + v.len) = size64 (t + v.len) := by
      unfold size64; omega
    simp only [List.foldl_cons, e]
    rw [ih]
    simp only [totalLen, List.map_cons, List.sum_cons, Nat.add_assoc]

theorem totalLen64_eq (vs : List Iovec) : totalLen64 vs = totalLen vs % 2 ^ 64 := by
  have := foldl_size64 vs 0
  simpa [totalLen64, size64] using this

theorem totalLen64_small {vs : List Iovec} (h : totalLen vs < 2 ^ 64) :
    totalLen64 vs = totalLen vs := by
  rw [totalLen64_eq, Nat.mod_eq_of_lt h]

namespace Aead

theorem evpDecrypt64_small {vs : List Iovec} (h : totalLen vs < 2 ^ 64) (L : Lib) (f : EvpFault)
    (alg : Alg) (key nonce : Bytes) (aad : List Iovec) (out : Iovec) :
    evpDecrypt64 L f alg key nonce aad vs out = evpDecrypt L f alg key nonce aad vs out := by
  unfold evpDecrypt64 evpDecrypt
  rw [totalLen64_small h]
  rfl

theorem decrypt64_small {vs : List Iovec} (h : totalLen vs < 2 ^ 64) (L : Lib) (f : EvpFault)
    (c : Crypter) (nonce : Bytes) (aad : List Iovec) (out : Iovec) :
    c.decrypt64 L f nonce aad vs out = c.decrypt L f nonce aad vs out := by
  unfold Crypter.decrypt64 Crypter.decrypt
  rw [evpDecrypt64_small h]

end Aead

theorem HalfConn.decrypt64_small {vs : List Iovec} (h : totalLen vs < 2 ^ 64) (L : Lib)
    (f : EvpFault) (hc : HalfConn) (aad : List Iovec) (out : Iovec) :
    hc.decrypt64 L f aad vs out = hc.decrypt L f aad vs out := by
  unfold HalfConn.decrypt64 HalfConn.decrypt
  simp only [Aead.decrypt64_small h]

namespace Record

theorem protect64_small {vs : List Iovec} (h : totalLen vs < 2 ^ 64) (L : Lib) (f : EvpFault)
    (c : Conn) (rt : RecordType) (record : Iovec) :
    protect64 L f c rt vs record = protect L f c rt vs record := by
  unfold protect64 protect
  rw [totalLen64_small h]
  rfl

theorem unprotect64_small {header : Iovec} {vs : List Iovec}
    (h : header.len + totalLen vs < 2 ^ 64) (L : Lib) (f : Fault) (c : Conn) (out : Iovec) :
    unprotect64 L f c header vs out = unprotect L f c header vs out := by
  unfold unprotect64 unprotect
  rw [totalLen64_small (by omega), show size64 (header.len + totalLen vs) = _ from
    Nat.mod_eq_of_lt h]
  simp only [HalfConn.decrypt64_small (show totalLen vs < 2 ^ 64 by omega)]
  rfl

theorem step64_small (L : Lib) (c : Conn) (op : Op) (h : Spec.FitsRecord op) :
    step64 L c op = step L c op := by
  cases op with
  | protect f rt pt rec => simp only [step64, step, protect64_small (show totalLen pt < _ from h)]
  | unprotect f hdr pl out =>
    simp only [step64, step, unprotect64_small (show hdr.len + totalLen pl < _ from h)]
  | updateOutboundKey f => rfl

end Record

namespace Frame

theorem collect_total {vs : List Iovec} {on need : Nat} {ps vs' : List Iovec} {on' : Nat}
    (h : collect vs on need = .ok (ps, vs', on')) : totalLen ps = need := by
  induction vs generalizing on need ps with
  | nil =>
    cases need with
    | zero => unfold collect at h; cases h; rfl
    | succ need => unfold collect at h; cases h
  | cons v vs ih =>
    cases need with
    | zero => unfold collect at h; cases h; rfl
    | succ need =>
      unfold collect at h
      simp only [HalfConn.exec_bind_eq_ok] at h
      obtain ⟨left, h1, piece, h2, h3⟩ := h
      have hl := slice_len h2
      split at h3
      · simp only [HalfConn.exec_bind_eq_ok] at h3
        obtain ⟨⟨ps2, vs2, on2⟩, h4, h5⟩ := h3
        cases h5
        have := ih h4
        simp only [totalLen, List.map_cons, List.sum_cons] at this ⊢
        omega
      · next hm =>
        cases h3
        have hs : on ≤ v.len ∧ left = v.len - on := by
          unfold subSize at h1
          split at h1
          · next hle => cases h1; exact ⟨hle, rfl⟩
          · cases h1
        simp only [totalLen, List.map_cons, List.map_nil, List.sum_cons, List.sum_nil]
        omega

theorem crypterProtect64_small {vs : List Iovec} (h : totalLen vs < 2 ^ 64) (L : Lib)
    (f : EvpFault) (s : State) (out : Iovec) :
    s.crypterProtect64 L f vs out = s.crypterProtect L f vs out := by
  unfold State.crypterProtect64 State.crypterProtect
  rw [Record.protect64_small h]

theorem crypterUnprotect64_small {hd : Bytes} {vs : List Iovec}
    (h : hd.length + totalLen vs < 2 ^ 64) (L : Lib) (f : Record.Fault) (s : State) (out : Iovec) :
    s.crypterUnprotect64 L f hd vs out = s.crypterUnprotect L f hd vs out := by
  unfold State.crypterUnprotect64 State.crypterUnprotect
  rw [Record.unprotect64_small (show (Iovec.buf hd).len + totalLen vs < 2 ^ 64 from h)]

theorem protectLoop64_eq (L : Lib) (f : Nat → EvpFault) (id : BufId) (fuel i : Nat) (s : State)
    (vs : List Iovec) (on : Nat) (first : Bool) (rem idx : Nat) (out : Iovec) :
    protectLoop64 L f id fuel i s vs on first rem idx out =
      protectLoop L f id fuel i s vs on first rem idx out := by
  induction fuel generalizing i s vs on first rem idx out with
  | zero => rw [protectLoop64.eq_def, protectLoop.eq_def]
  | succ fuel ih =>
    rw [protectLoop64.eq_def, protectLoop.eq_def]
    simp only
    split
    · generalize hn : (if rem < kMaxPlaintext then rem else kMaxPlaintext) = n
      have hle : n ≤ kMaxPlaintext := by subst hn; split <;> omega
      cases hc : collect vs on n with
      | error e => simp only [exec_bind_error]
      | ok x =>
        obtain ⟨ps, vs', on'⟩ := x
        have ht : totalLen ps < 2 ^ 64 := by
          rw [collect_total hc]; exact Nat.lt_of_le_of_lt hle (by decide)
        simp only [exec_bind_ok, crypterProtect64_small ht]
        cases subSize out.len idx with
        | error e => simp only [exec_bind_error]
        | ok room =>
          simp only [exec_bind_ok]
          cases out.slice idx room with
          | error e => simp only [exec_bind_error]
          | ok slot =>
            simp only [exec_bind_ok]
            cases s.crypterProtect L (f i) ps slot with
            | error e => simp only [exec_bind_error]
            | ok y => simp only [exec_bind_ok, ih]
    · rfl

/-! ### The first bytes of a list of buffers -/

theorem slice_short (v : Iovec) (n i m : Nat) (h : i + m ≤ n) :
    (short n v).slice i m = v.slice i m ∨ v.len < n := by
  by_cases hl : v.len < n
  · exact .inr hl
  refine .inl ?_
  cases v with
  | null l =>
    simp only [Iovec.len] at hl
    simp only [short, Iovec.slice]
    rw [if_pos h, if_pos (by omega)]
  | buf d =>
    simp only [Iovec.len] at hl
    simp only [short, Iovec.slice, List.length_take]
    rw [if_pos (by omega), if_pos (by omega), List.drop_take, List.take_take,
      Nat.min_eq_left (by omega)]

theorem short_len (v : Iovec) (n : Nat) (h : n ≤ v.len) : (short n v).len = n := by
  cases v with
  | null l => rfl
  | buf d => simp only [short, Iovec.len, List.length_take] at *; omega

theorem firstBytes_total (n : Nat) (vs : List Iovec) (h : n ≤ totalLen vs) :
    totalLen (firstBytes n vs) = n := by
  induction vs generalizing n with
  | nil => simp only [totalLen_nil] at h; simp [firstBytes, totalLen_nil]; omega
  | cons v vs ih =>
    rw [totalLen_cons] at h
    unfold firstBytes
    split
    · rw [totalLen_nil]; omega
    · split
      · rw [totalLen_cons, ih _ (by omega)]; omega
      · rw [totalLen_cons, totalLen_nil, short_len _ _ (by omega)]; omega

theorem collect_first (vs : List Iovec) (on need rem : Nat) (h : need ≤ rem) :
    (∃ e, collect vs on need = .error e ∧ collect (firstBytes (on + rem) vs) on need = .error e) ∨
    ∃ ps vs1 on1 vs2 on2, collect vs on need = .ok (ps, vs1, on1) ∧
      collect (firstBytes (on + rem) vs) on need = .ok (ps, vs2, on2) ∧
      (need = rem ∨ (on2 = on1 ∧ vs2 = firstBytes (on1 + (rem - need)) vs1)) := by
  induction vs generalizing on need rem with
  | nil =>
    cases need with
    | zero => exact .inr ⟨[], [], on, [], on, by simp [collect], by simp [collect, firstBytes],
        .inr ⟨rfl, rfl⟩⟩
    | succ need => exact .inl ⟨_, by rw [collect], by rw [firstBytes, collect]⟩
  | cons v vs ih =>
    cases need with
    | zero =>
      exact .inr ⟨[], v :: vs, on, firstBytes (on + rem) (v :: vs), on, by simp [collect],
        by simp [collect], .inr ⟨rfl, by rw [Nat.sub_zero]⟩⟩
    | succ need =>
      have hne : ¬ on + rem = 0 := by omega
      by_cases hv : v.len ≤ on + rem
      · have ef : firstBytes (on + rem) (v :: vs) = v :: firstBytes (on + rem - v.len) vs := by
          rw [firstBytes, if_neg hne, if_pos hv]
        rw [ef]
        simp only [collect]
        by_cases hs : on ≤ v.len
        · rw [show subSize v.len on = .ok (v.len - on) from if_pos hs]
          simp only [exec_bind_ok]
          cases hp : v.slice on (min (v.len - on) (need + 1)) with
          | error e => exact .inl ⟨e, rfl, rfl⟩
          | ok piece =>
            simp only [exec_bind_ok]
            by_cases hm : on + min (v.len - on) (need + 1) ≥ v.len
            · simp only [if_pos hm]
              have hmin : min (v.len - on) (need + 1) = v.len - on := by omega
              rw [hmin]
              have key := ih 0 (need + 1 - (v.len - on)) (rem - (v.len - on)) (by omega)
              rw [show 0 + (rem - (v.len - on)) = on + rem - v.len by omega] at key
              rcases key with ⟨e, h1, h2⟩ | ⟨ps, vs1, on1, vs2, on2, h1, h2, h3⟩
              · exact .inl ⟨e, by rw [h1]; rfl, by rw [h2]; rfl⟩
              · refine .inr ⟨piece :: ps, vs1, on1, vs2, on2, by rw [h1]; rfl, by rw [h2]; rfl, ?_⟩
                rcases h3 with h3 | ⟨h3, h4⟩
                · exact .inl (by omega)
                · exact .inr ⟨h3, by rw [h4]; congr 1; omega⟩
            · simp only [if_neg hm]
              have hmin : min (v.len - on) (need + 1) = need + 1 := by omega
              rw [hmin]
              refine .inr ⟨_, _, _, _, _, rfl, rfl, .inr ⟨rfl, ?_⟩⟩
              rw [show on + (need + 1) + (rem - (need + 1)) = on + rem by omega, ef]
        · rw [show subSize v.len on = .error .sizeWrap from if_neg hs]
          exact .inl ⟨_, rfl, rfl⟩
      · have ef : firstBytes (on + rem) (v :: vs) = [short (on + rem) v] := by
          rw [firstBytes, if_neg hne, if_neg hv]
        rw [ef]
        simp only [collect]
        have hsl := short_len v (on + rem) (by omega)
        rw [hsl, show subSize v.len on = .ok (v.len - on) from if_pos (by omega),
          show subSize (on + rem) on = .ok rem from by
            unfold subSize; rw [if_pos (by omega)]; congr 1; omega]
        simp only [exec_bind_ok]
        rw [show min (v.len - on) (need + 1) = need + 1 by omega,
          show min rem (need + 1) = need + 1 by omega]
        rw [(slice_short v (on + rem) on (need + 1) (by omega)).resolve_right (by omega)]
        cases hp : v.slice on (need + 1) with
        | error e => exact .inl ⟨e, rfl, rfl⟩
        | ok piece =>
          simp only [exec_bind_ok]
          rw [if_neg (show ¬ on + (need + 1) ≥ v.len by omega)]
          by_cases hm : on + (need + 1) ≥ on + rem
          · refine .inr ⟨_, _, _, _, _, rfl, by rw [if_pos hm, Nat.sub_self, collect]; rfl, .inl ?_⟩
            omega
          · refine .inr ⟨_, _, _, _, _, rfl, by rw [if_neg hm]; rfl, .inr ⟨rfl, ?_⟩⟩
            rw [show on + (need + 1) + (rem - (need + 1)) = on + rem by omega, ef]

theorem protectLoop_end (L : Lib) (f : Nat → EvpFault) (id : BufId) (fuel i : Nat) (s : State)
    (vs ws : List Iovec) (on on' idx : Nat) (out : Iovec) :
    protectLoop L f id fuel i s vs on false 0 idx out =
      protectLoop L f id fuel i s ws on' false 0 idx out := by
  cases fuel with
  | zero => rfl
  | succ fuel => rw [protectLoop.eq_def, protectLoop.eq_def]; simp

theorem protectLoop_first (L : Lib) (f : Nat → EvpFault) (id : BufId) (fuel i : Nat) (s : State)
    (vs : List Iovec) (on : Nat) (first : Bool) (rem idx : Nat) (out : Iovec) :
    protectLoop L f id fuel i s vs on first rem idx out =
      protectLoop L f id fuel i s (firstBytes (on + rem) vs) on first rem idx out := by
  induction fuel generalizing i s vs on first rem idx out with
  | zero => rfl
  | succ fuel ih =>
    rw [protectLoop.eq_def, protectLoop.eq_def]
    simp only
    split
    · generalize hn : (if rem < kMaxPlaintext then rem else kMaxPlaintext) = n
      have hle : n ≤ rem := by subst hn; split <;> omega
      rcases collect_first vs on n rem hle with ⟨e, h1, h2⟩ | ⟨ps, vs1, on1, vs2, on2, h1, h2, h3⟩
      · rw [h1, h2]
      · rw [h1, h2]
        simp only [exec_bind_ok]
        have e : ∀ (i : Nat) (s : State) (idx : Nat) (out : Iovec),
            protectLoop L f id fuel i s vs1 on1 false (rem - n) idx out =
              protectLoop L f id fuel i s vs2 on2 false (rem - n) idx out := by
          intro i s idx out
          rcases h3 with h3 | ⟨h3, h4⟩
          · rw [h3, Nat.sub_self]; exact protectLoop_end ..
          · rw [h3, h4]; exact ih ..
        simp only [e]
    · rfl

theorem protectInto64_first (L : Lib) (f : Nat → EvpFault) (s : State) (id : BufId)
    (vs : List Iovec) (out : Iovec) :
    protectInto64 L f s id vs out =
      protectInto L f s id (firstBytes (totalLen vs % 2 ^ 64) vs) out := by
  unfold protectInto64 protectInto
  rw [totalLen64_eq, firstBytes_total _ _ (Nat.mod_le _ _)]
  simp only
  rw [protectLoop64_eq, protectLoop_first, Nat.zero_add]

theorem firstBytes_append (vs X : List Iovec) :
    firstBytes (totalLen vs) (vs ++ X) = firstBytes (totalLen vs) vs := by
  induction vs with
  | nil =>
    rw [totalLen_nil, List.nil_append]
    cases X with
    | nil => rfl
    | cons x X => simp [firstBytes]
  | cons v vs ih =>
    rw [totalLen_cons, List.cons_append]
    unfold firstBytes
    split
    · rfl
    · rw [if_pos (by omega), if_pos (by omega), show v.len + totalLen vs - v.len = totalLen vs by
        omega, ih]

theorem firstBytes_flat (n : Nat) (vs : List Iovec) (h : AllWF vs) :
    flat (firstBytes n vs) = (flat vs).take n := by
  induction vs generalizing n with
  | nil => simp [firstBytes, flat]
  | cons v vs ih =>
    have hv : v.bytes.length = v.len := by
      have := h v (by simp)
      cases v with
      | null l => simp only [Iovec.WF] at this; simp [Iovec.bytes, Iovec.len, this]
      | buf d => rfl
    have hvs : AllWF vs := fun w hw => h w (by simp [hw])
    have ef : flat (v :: vs) = v.bytes ++ flat vs := by simp [flat]
    rw [ef]
    unfold firstBytes
    split
    · next h0 => rw [h0]; rfl
    · split
      · next hle =>
        rw [List.take_append, List.take_of_length_le (by omega), hv, ← ih _ hvs]
        simp [flat]
      · next hgt =>
        rw [List.take_append_of_le_length (by omega)]
        cases v with
        | null l => simp [short, flat, Iovec.bytes]
        | buf d => simp [short, flat, Iovec.bytes]

theorem protectInto64_small (L : Lib) (f : Nat → EvpFault) (s : State) (id : BufId)
    (vs : List Iovec) (out : Iovec) (h : totalLen vs < 2 ^ 64) :
    protectInto64 L f s id vs out = protectInto L f s id vs out := by
  unfold protectInto64 protectInto
  rw [totalLen64_small h]
  simp only [protectLoop64_eq]

/-! ### Unprotecting -/

theorem readHeader_left {k i : Nat} {vs : List Iovec} {on : Nat} {hd : Bytes} {vs' : List Iovec}
    {on' : Nat} (h : readHeader k i vs on = .ok (.ok (hd, vs', on'))) (hon : on ≤ totalLen vs) :
    on' ≤ totalLen vs' ∧ totalLen vs' + on + k = totalLen vs + on' := by
  induction k generalizing i vs on hd with
  | zero => unfold readHeader at h; cases h; exact ⟨hon, rfl⟩
  | succ k ih =>
    cases vs with
    | nil => unfold readHeader at h; cases h
    | cons v vs =>
      unfold readHeader at h
      split at h
      · cases h
      next d =>
      simp only [HalfConn.exec_bind_eq_ok] at h
      obtain ⟨b, hb, h⟩ := h
      have hlt : on < d.length := by
        unfold Iovec.byteAt at hb
        simp only at hb
        split at hb
        · next b' hb' => exact (List.getElem?_eq_some_iff.1 hb').1
        · cases hb
      split at h
      · cases h
      simp only [HalfConn.exec_bind_eq_ok] at h
      obtain ⟨x, h1, h2⟩ := h
      split at h2
      · cases h2
      · next h' vs2 on2 =>
        cases h2
        rw [totalLen_cons, show (Iovec.buf d).len = d.length from rfl] at *
        unfold advance at h1
        rw [show (Iovec.buf d).len = d.length from rfl] at h1
        split at h1
        · simp only at h1
          have := ih h1 (Nat.zero_le _)
          omega
        · have := ih h1 (by rw [totalLen_cons, show (Iovec.buf d).len = d.length from rfl]; omega)
          rw [totalLen_cons, show (Iovec.buf d).len = d.length from rfl] at this
          omega

theorem isolate_left {vs : List Iovec} {on rem : Nat} {ps vs' : List Iovec} {on' : Nat}
    (h : isolate vs on rem = .ok (.ok (ps, vs', on'))) (hon : on ≤ totalLen vs) :
    on' ≤ totalLen vs' ∧ totalLen vs' + on + rem = totalLen vs + on' := by
  induction vs generalizing on rem ps with
  | nil =>
    cases rem with
    | zero => unfold isolate at h; cases h; exact ⟨hon, rfl⟩
    | succ rem => unfold isolate at h; cases h
  | cons v vs ih =>
    cases rem with
    | zero => unfold isolate at h; cases h; exact ⟨hon, rfl⟩
    | succ rem =>
      unfold isolate at h
      split at h
      · cases h
      simp only [HalfConn.exec_bind_eq_ok] at h
      obtain ⟨left, h1, piece, h2, h3⟩ := h
      unfold subSize at h1
      split at h1
      case isFalse => cases h1
      cases h1
      rw [totalLen_cons] at *
      split at h3
      · simp only [HalfConn.exec_bind_eq_ok] at h3
        obtain ⟨x, h4, h5⟩ := h3
        split at h5
        · cases h5
        · cases h5
          have := ih h4 (Nat.zero_le _)
          omega
      · cases h3
        rw [totalLen_cons]
        omega

theorem payloadSize_lt (hd : Bytes) : payloadSize hd < 65536 := by
  unfold payloadSize
  split
  · next b3 b4 =>
    have h3 := b3.toNat_lt
    have h4 := b4.toNat_lt
    rw [Nat.shiftLeft_eq]
    omega
  · omega

theorem crypterUnprotect64_frame {vs vs1 : List Iovec} {on on1 : Nat} {hd : Bytes}
    {ps vs' : List Iovec} {on' : Nat} (h1 : readHeader 5 0 vs on = .ok (.ok (hd, vs1, on1)))
    (h2 : isolate vs1 on1 (payloadSize hd) = .ok (.ok (ps, vs', on')))
    (L : Lib) (f : Record.Fault) (s : State) (out : Iovec) :
    s.crypterUnprotect64 L f hd ps out = s.crypterUnprotect L f hd ps out := by
  apply crypterUnprotect64_small
  rw [readHeader_length h1, isolate_total h2]
  have := payloadSize_lt hd
  omega

theorem unprotectInto64_eq (L : Lib) (f : Record.Fault) (s : State) (vs : List Iovec)
    (out : Iovec) :
    unprotectInto64 L f s vs out =
      if totalLen vs % 2 ^ 64 < 22 then .ok (s, .failedPrecondition, out.len, out)
      else unprotectInto L f s vs out := by
  have h22 : s.conn.recordOverhead = 22 := Record.recordOverhead_eq _
  unfold unprotectInto64 unprotectInto numberBytesToUnprotect
  rw [totalLen64_eq, h22]
  have h5 : kHeaderLength = 5 := rfl
  by_cases hx : totalLen vs % 2 ^ 64 < 22
  · rw [if_pos hx, if_pos hx, if_pos rfl]
  · rw [if_neg hx, if_neg hx, if_neg (by omega), if_neg (by
      rw [if_neg (by omega)]; omega)]
    cases h1 : readHeader kHeaderLength 0 vs 0 with
    | error e => simp only [exec_bind_error]
    | ok x =>
      simp only [exec_bind_ok]
      cases x with
      | error e => rfl
      | ok y =>
        obtain ⟨hd, vs1, on1⟩ := y
        simp only
        cases h2 : isolate vs1 on1 (payloadSize hd) with
        | error e => simp only [exec_bind_error]
        | ok x =>
          simp only [exec_bind_ok]
          cases x with
          | error e => rfl
          | ok y =>
            obtain ⟨ps, vs2, on2⟩ := y
            simp only [crypterUnprotect64_frame h1 h2]

theorem unprotectInto64_small (L : Lib) (f : Record.Fault) (s : State) (vs : List Iovec)
    (out : Iovec) (h : totalLen vs < 2 ^ 64) :
    unprotectInto64 L f s vs out = unprotectInto L f s vs out := by
  rw [unprotectInto64_eq, Nat.mod_eq_of_lt h]
  split
  · next hl =>
    have h22 : s.conn.recordOverhead = 22 := Record.recordOverhead_eq _
    unfold unprotectInto numberBytesToUnprotect
    rw [h22, if_pos hl, if_pos rfl]
  · rfl

/-- As long as what is left behind the cursor fits, the loop with 64-bit sums is the loop. -/
theorem unprotectLoop64_small (L : Lib) (A : Allocator) (f : Nat → Record.Fault) (fuel i : Nat)
    (s : State) (vs : List Iovec) (on rem : Nat) (done : List (BufId × Bytes))
    (hr : rem + on = totalLen vs) (h64 : rem < 2 ^ 64) :
    unprotectLoop64 L A f fuel i s vs on rem done = unprotectLoop L A f fuel i s vs on rem done := by
  induction fuel generalizing i s vs on rem done with
  | zero => rw [unprotectLoop64.eq_def, unprotectLoop.eq_def]
  | succ fuel ih =>
    rw [unprotectLoop64.eq_def, unprotectLoop.eq_def]
    simp only
    split
    · cases h1 : readHeader kHeaderLength 0 vs on with
      | error e => simp only [exec_bind_error]
      | ok x =>
        simp only [exec_bind_ok]
        cases x with
        | error e => rfl
        | ok y =>
          obtain ⟨hd, vs1, on1⟩ := y
          simp only
          cases h2 : isolate vs1 on1 (payloadSize hd) with
          | error e => simp only [exec_bind_error]
          | ok x =>
            simp only [exec_bind_ok]
            cases x with
            | error e => rfl
            | ok y =>
              obtain ⟨ps, vs2, on2⟩ := y
              simp only [crypterUnprotect64_frame h1 h2]
              have l1 := readHeader_left h1 (by omega)
              have l2 := isolate_left h2 l1.1
              generalize hz : kHeaderLength + payloadSize hd = z
              have h5 : kHeaderLength = 5 := rfl
              have hsub : subSize rem z = .ok (rem - z) := if_pos (by omega)
              have hsz : size64 (rem + 2 ^ 64 - z) = rem - z := by
                unfold size64
                rw [show rem + 2 ^ 64 - z = rem - z + 2 ^ 64 by omega, Nat.add_mod_right]
                exact Nat.mod_eq_of_lt (by omega)
              rw [hsub, hsz]
              simp only [exec_bind_ok]
              simp only [ih _ _ _ _ _ _ (show rem - z + on2 = totalLen vs2 by omega)
                (show rem - z < 2 ^ 64 by omega)]
    · rfl

theorem unprotect64_small (L : Lib) (A : Allocator) (f : Nat → Record.Fault) (s : State)
    (vs : List Iovec) (h : totalLen vs < 2 ^ 64) :
    unprotect64 L A f s vs = unprotect L A f s vs := by
  unfold unprotect64 unprotect
  rw [totalLen64_small h]
  simp only
  rw [unprotectLoop64_small _ _ _ _ _ _ _ _ _ _ rfl h]

theorem readHeader_not_ok (k i : Nat) (vs : List Iovec) (on : Nat) :
    readHeader k i vs on ≠ .ok (.error .ok) := by
  induction k generalizing i vs on with
  | zero => unfold readHeader; intro h; cases h
  | succ k ih =>
    cases vs with
    | nil => unfold readHeader; intro h; cases h
    | cons v vs =>
      unfold readHeader
      intro h
      split at h
      · cases h
      simp only [HalfConn.exec_bind_eq_ok] at h
      obtain ⟨b, hb, h⟩ := h
      split at h
      · cases h
      simp only [HalfConn.exec_bind_eq_ok] at h
      obtain ⟨x, h1, h2⟩ := h
      split at h2
      · cases h2; exact ih _ _ _ h1
      · cases h2

theorem isolate_not_ok (vs : List Iovec) (on rem : Nat) :
    isolate vs on rem ≠ .ok (.error .ok) := by
  induction vs generalizing on rem with
  | nil => cases rem <;> (unfold isolate; intro h; cases h)
  | cons v vs ih =>
    cases rem with
    | zero => unfold isolate; intro h; cases h
    | succ rem =>
      unfold isolate
      intro h
      split at h
      · cases h
      simp only [HalfConn.exec_bind_eq_ok] at h
      obtain ⟨left, h1, piece, h2, h3⟩ := h
      split at h3
      · simp only [HalfConn.exec_bind_eq_ok] at h3
        obtain ⟨x, h4, h5⟩ := h3
        split at h5
        · cases h5; exact ih _ _ h4
        · cases h5
      · cases h3

theorem unprotectLoop64_append (L : Lib) (A : Allocator) (f : Nat → Record.Fault)
    (fuel fuel' i : Nat) (s : State) (vs X : List Iovec) (on rem : Nat)
    (done : List (BufId × Bytes)) (s' : State) (d : List (BufId × Bytes)) (hf : fuel ≤ fuel')
    (h64 : rem < 2 ^ 64) (h : unprotectLoop L A f fuel i s vs on rem done = .ok (s', ⟨.ok, d⟩)) :
    unprotectLoop64 L A f fuel' i s (vs ++ X) on rem done = .ok (s', ⟨.ok, d⟩) := by
  induction fuel generalizing fuel' i s vs on rem done with
  | zero => rw [unprotectLoop.eq_def] at h; cases h
  | succ fuel ih =>
    obtain ⟨fuel', rfl⟩ : ∃ k, fuel' = k + 1 := ⟨fuel' - 1, by omega⟩
    rw [unprotectLoop.eq_def] at h
    rw [unprotectLoop64.eq_def]
    simp only at h ⊢
    split at h
    · next hge =>
      rw [if_pos hge]
      simp only [HalfConn.exec_bind_eq_ok] at h
      obtain ⟨x, h1, h⟩ := h
      cases x with
      | error e =>
        -- the walk over a header fails with a status other than OK
        simp only at h
        cases h
        exact absurd h1 (readHeader_not_ok _ _ _ _)
      | ok y =>
        obtain ⟨hd, vs1, on1⟩ := y
        simp only [HalfConn.exec_bind_eq_ok] at h
        obtain ⟨x, h2, h⟩ := h
        cases x with
        | error e =>
          simp only at h
          cases h
          exact absurd h2 (isolate_not_ok _ _ _)
        | ok y =>
          obtain ⟨ps, vs2, on2⟩ := y
          rw [(readHeader_append _ _ vs X on).2 _ _ _ h1]
          simp only [exec_bind_ok]
          rw [isolate_append vs1 X _ _ _ _ _ h2]
          simp only [exec_bind_ok, crypterUnprotect64_frame h1 h2]
          simp only [HalfConn.exec_bind_eq_ok] at h
          obtain ⟨⟨s2, r⟩, h3, h⟩ := h
          rw [h3]
          simp only [exec_bind_ok]
          simp only at h
          split at h
          · next hc =>
            rw [if_pos hc]
            exact h
          · next hc =>
            rw [if_neg hc]
            simp only [HalfConn.exec_bind_eq_ok] at h
            obtain ⟨rem', h4, h⟩ := h
            generalize hz : kHeaderLength + payloadSize hd = z at h4 ⊢
            unfold subSize at h4
            split at h4
            · cases h4
              have hsz : size64 (rem + 2 ^ 64 - z) = rem - z := by
                unfold size64
                rw [show rem + 2 ^ 64 - z = rem - z + 2 ^ 64 by omega, Nat.add_mod_right]
                exact Nat.mod_eq_of_lt (by omega)
              rw [hsz]
              exact ih _ _ _ _ _ _ _ (by omega) (by omega) h
            · cases h4
    · next hlt =>
      rw [if_neg hlt]
      exact h

theorem unprotect64_append (L : Lib) (A : Allocator) (f : Nat → Record.Fault) (s : State)
    (vs X : List Iovec) (s' : State) (d : List (BufId × Bytes)) (h64 : totalLen vs < 2 ^ 64)
    (hX : totalLen X % 2 ^ 64 = 0) (h : unprotect L A f s vs = .ok (s', ⟨.ok, d⟩)) :
    unprotect64 L A f s (vs ++ X) = .ok (s', ⟨.ok, d⟩) := by
  unfold unprotect at h
  unfold unprotect64
  have ht : totalLen (vs ++ X) = totalLen vs + totalLen X := by
    simp only [totalLen, List.map_append, List.sum_append]
  have e : totalLen64 (vs ++ X) = totalLen vs := by
    rw [totalLen64_eq, ht]; omega
  rw [e]
  simp only at h ⊢
  split at h
  · cases h
  · next hn =>
    rw [if_neg hn]
    exact unprotectLoop64_append L A f _ _ _ _ _ _ _ _ _ _ _ (by omega) h64 h

theorem protect64_small (L : Lib) (A : Allocator) (f : Nat → EvpFault) (s : State)
    (vs : List Iovec) (n : Nat) (hn : totalLen vs % 2 ^ 64 = n)
    (h : n + 22 * (n / 16384 + 1) < 2 ^ 64) :
    protect64 L A f s vs = protect L A f s (firstBytes n vs) := by
  have h22 : s.conn.recordOverhead = 22 := Record.recordOverhead_eq _
  have hle : n ≤ totalLen vs := hn ▸ Nat.mod_le _ _
  unfold protect64 protect
  simp only [protectInto64_first, hn, firstBytes_total n vs hle]
  have e : (numberBytesToProtect64 s (UInt64.ofNat (totalLen64 vs))).toNat
      = numberBytesToProtect s n := by
    have en : (UInt64.ofNat (totalLen64 vs)).toNat = n := by
      rw [totalLen64_eq, hn]
      exact UInt64.toNat_ofNat_of_lt' (by have : UInt64.size = 2 ^ 64 := rfl; omega)
    rw [C03_protected_size_64, en]
    rw [en]
    unfold numberBytesToProtect
    rw [h22]
    simp only [kMaxPlaintext]
    split <;> omega
  rw [e]

theorem protectInto_first (L : Lib) (f : Nat → EvpFault) (s : State) (id : BufId)
    (vs : List Iovec) (out : Iovec) (h : totalLen vs < 2 ^ 64) :
    protectInto L f s id (firstBytes (totalLen vs) vs) out = protectInto L f s id vs out := by
  have := protectInto64_first L f s id vs out
  rw [Nat.mod_eq_of_lt h] at this
  rw [← this, protectInto64_small L f s id vs out h]

theorem protect_first (L : Lib) (A : Allocator) (f : Nat → EvpFault) (s : State)
    (vs : List Iovec) (h : totalLen vs < 2 ^ 64) :
    protect L A f s (firstBytes (totalLen vs) vs) = protect L A f s vs := by
  unfold protect
  simp only [protectInto_first L f _ _ vs _ h, firstBytes_total _ vs (Nat.le_refl _)]

/-- The loop with 64-bit sums is the loop, or it stops early, with OK. -/
theorem unprotectLoop64_or (L : Lib) (A : Allocator) (f : Nat → Record.Fault) (fuel i : Nat)
    (s : State) (vs : List Iovec) (on T : Nat) (done : List (BufId × Bytes))
    (hr : T + on = totalLen vs) :
    unprotectLoop64 L A f fuel i s vs on (T % 2 ^ 64) done =
        unprotectLoop L A f fuel i s vs on T done ∨
      ∃ s' d, unprotectLoop64 L A f fuel i s vs on (T % 2 ^ 64) done = .ok (s', ⟨.ok, d⟩) := by
  induction fuel generalizing i s vs on T done with
  | zero => exact .inl (by rw [unprotectLoop64.eq_def, unprotectLoop.eq_def])
  | succ fuel ih =>
    rw [unprotectLoop64.eq_def, unprotectLoop.eq_def]
    simp only
    by_cases hge : T % 2 ^ 64 ≥ s.conn.recordOverhead
    · rw [if_pos hge, if_pos (Nat.le_trans hge (Nat.mod_le _ _))]
      cases h1 : readHeader kHeaderLength 0 vs on with
      | error e => exact .inl (by simp only [exec_bind_error])
      | ok x =>
        simp only [exec_bind_ok]
        cases x with
        | error e => exact .inl rfl
        | ok y =>
          obtain ⟨hd, vs1, on1⟩ := y
          simp only
          cases h2 : isolate vs1 on1 (payloadSize hd) with
          | error e => exact .inl (by simp only [exec_bind_error])
          | ok x =>
            simp only [exec_bind_ok]
            cases x with
            | error e => exact .inl rfl
            | ok y =>
              obtain ⟨ps, vs2, on2⟩ := y
              simp only [crypterUnprotect64_frame h1 h2]
              have l1 := readHeader_left h1 (by omega)
              have l2 := isolate_left h2 l1.1
              have hp := payloadSize_lt hd
              have h5 : kHeaderLength = 5 := rfl
              generalize hz : kHeaderLength + payloadSize hd = z
              have hsub : subSize T z = .ok (T - z) := if_pos (by omega)
              have hsz : size64 (T % 2 ^ 64 + 2 ^ 64 - z) = (T - z) % 2 ^ 64 := by
                unfold size64
                omega
              rw [hsub, hsz]
              cases State.crypterUnprotect L (f i) (s.alloc A (payloadSize hd)).1 hd ps
                  (s.alloc A (payloadSize hd)).2.2 with
              | error e => exact .inl (by simp only [exec_bind_error])
              | ok y =>
                obtain ⟨s2, r⟩ := y
                simp only [exec_bind_ok]
                by_cases hc : r.code ≠ .ok
                · rw [if_pos hc, if_pos hc]; exact .inl rfl
                · rw [if_neg hc, if_neg hc]
                  exact ih _ _ _ _ _ _ (by omega)
    · rw [if_neg hge]
      exact .inr ⟨_, _, rfl⟩

theorem unprotect64_or (L : Lib) (A : Allocator) (f : Nat → Record.Fault) (s : State)
    (vs : List Iovec) :
    unprotect64 L A f s vs = unprotect L A f s vs ∨
      ∃ s' r, unprotect64 L A f s vs = .ok (s', r) ∧
        (r.status = .ok ∨ r.status = .failedPrecondition) := by
  unfold unprotect64 unprotect
  rw [totalLen64_eq]
  simp only
  by_cases hl : totalLen vs % 2 ^ 64 < s.conn.recordOverhead
  · rw [if_pos hl]
    exact .inr ⟨_, _, rfl, .inr rfl⟩
  · rw [if_neg hl, if_neg (by have := Nat.mod_le (totalLen vs) (2 ^ 64); omega)]
    rcases unprotectLoop64_or L A f (totalLen vs + 1) 0 s vs 0 (totalLen vs) [] rfl with h | ⟨s', d, h⟩
    · exact .inl h
    · exact .inr ⟨s', _, h, .inl rfl⟩

theorem step64_small (L : Lib) (A : Allocator) (s : State) (op : Op) (h : Spec.Fits op) :
    step64 L A s op = step L A s op := by
  cases op with
  | protect f vs =>
    have h : totalLen vs + 22 * (totalLen vs / 16384 + 1) < 2 ^ 64 := h
    have h64 : totalLen vs < 2 ^ 64 := by omega
    simp only [step64, step, protect64_small L A f s vs _ (Nat.mod_eq_of_lt h64) h,
      protect_first L A f s vs h64]
  | protectInto f vs out =>
    simp only [step64, step, protectInto64_small L f s .caller vs out h]
  | unprotect f vs => simp only [step64, step, unprotect64_small L A f s vs h]
  | unprotectInto f vs out => simp only [step64, step, unprotectInto64_small L f s vs out h]

theorem run64_small (L : Lib) (A : Allocator) (s : State) (ops : List Op)
    (h : ∀ op ∈ ops, Spec.Fits op) : run64 L A s ops = run L A s ops := by
  induction ops generalizing s with
  | nil => rfl
  | cons op ops ih =>
    simp only [run64, run, step64_small L A s op (h op (by simp)),
      ih _ (fun o ho => h o (by simp [ho]))]

end Frame

theorem Record.run64_small (L : Lib) (c : Record.Conn) (ops : List Record.Op)
    (h : ∀ op ∈ ops, Spec.FitsRecord op) : Record.run64 L c ops = Record.run L c ops := by
  induction ops generalizing c with
  | nil => rfl
  | cons op ops ih =>
    simp only [Record.run64, Record.run, Record.step64_small L c op (h op (by simp)),
      ih _ (fun o ho => h o (by simp [ho]))]

namespace Aead

theorem decLoop_stop (L : Lib) (f : EvpFault) (k : Nat) (c : Ctx) (o : Bytes) (off rem : Nat)
    (cur : Bytes) (vs : List Iovec) :
    decLoop L f k c o off rem 16 cur vs = .ok (o, .ok ⟨c, cur, 16, rem, vs⟩) := by
  cases vs with
  | nil => rw [decLoop]
  | cons v vs => rw [decLoop.eq_def]; simp only; rw [if_pos (Nat.le_refl 16)]

/-- The loop of `Decrypt` when 17 bytes are counted and more are in the first buffer. -/
theorem decLoop_one (L : Lib) (c : Ctx) (o d : Bytes) (vs : List Iovec) (hd : 17 < d.length)
    (ho : 1 ≤ o.length) :
    ∃ o' c', decLoop L .none 0 c o 0 o.length 17 [] (.buf d :: vs) =
      .ok (o', .ok ⟨c', d.drop 1, 16, o.length - 1, vs⟩) := by
  have hk : kTagSize = 16 := rfl
  have hib : intBound = 2 ^ 31 := rfl
  have hol : ∀ c : Ctx, (c.decUpdate L (d.take 1)).1.length = 1 := by
    intro c
    simp only [Ctx.decUpdate, xorKs_length, List.length_take]; omega
  rw [decLoop]
  rw [if_neg (by omega), if_neg (show ¬ (Iovec.buf d).len = 0 by simp only [Iovec.len]; omega)]
  simp only
  rw [if_pos (show d.length > 17 - kTagSize by omega), show 17 - kTagSize = 1 from rfl,
    if_neg (by omega), if_neg (by omega),
    if_neg (show ¬ EvpFault.none.update 0 = true by simp [EvpFault.none])]
  rw [show writeAt o 0 (c.decUpdate L (d.take 1)).1 = .ok _ from if_pos (by rw [hol]; omega)]
  simp only [exec_bind_ok, hol]
  rw [subSize_ok ho, subSize_ok (by omega)]
  simp only [exec_bind_ok]
  exact ⟨_, _, decLoop_stop ..⟩

theorem evpDecrypt64_overflow (L : Lib) (alg : Alg) (key nonce hd : Bytes) (o d : Bytes)
    (vs : List Iovec) (hn : nonce.length = 12) (hh : hd.length = 5) (hd1 : 17 < d.length)
    (ho : 1 ≤ o.length) (ht : totalLen64 (.buf d :: vs) = 17) :
    evpDecrypt64 L .none alg key nonce [.buf hd] (.buf d :: vs) (.buf o) = .error .outOfBounds := by
  have hk : kTagSize = 16 := rfl
  have hkn : kNonceSize = 12 := rfl
  have hib : intBound = 2 ^ 31 := rfl
  unfold evpDecrypt64
  rw [if_neg (show ¬ ¬ (Iovec.buf o).WF from fun h => h trivial)]
  simp only [ht]
  rw [if_neg (by omega), if_neg (by omega), if_neg (show ¬ EvpFault.none.init = true by
    simp [EvpFault.none])]
  have ha : ∀ x : Ctx, setAad .none 0 x [.buf hd] = .ok (.ok { x with aad := x.aad ++ hd }) := by
    intro x
    rw [setAad, if_neg (show ¬ (Iovec.buf hd).len = 0 by simp only [Iovec.len]; omega)]
    rw [if_neg (by omega), if_neg (show ¬ EvpFault.none.aad 0 = true by simp [EvpFault.none]),
      setAad]
  rw [ha]
  simp only [exec_bind_ok]
  obtain ⟨o', c', e⟩ := decLoop_one L ⟨alg, key, nonce, [] ++ hd, []⟩ o d vs hd1 ho
  rw [show (Iovec.buf o).bytes = o from rfl, e]
  simp only [exec_bind_ok]
  rw [if_neg (by omega), show tagAppend [] (d.drop 1) = .error .outOfBounds from
    if_neg (by simp only [List.length_nil, List.length_drop]; omega)]
  rfl

end Aead
end S2A
