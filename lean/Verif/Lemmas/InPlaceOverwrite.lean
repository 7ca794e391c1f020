import Verif.Lemmas.InPlaceFrame
import Verif.Lemmas.FrameProtect
/-
Protect over its own input: what happens to an input of more than one record.
-/
namespace S2A.InPlace
open Spec (replaced Inside Apart Placed PlacedRecords sealedAt)

/-- The byte that `Protect` writes behind a full record. -/
theorem protect_type_byte {L : Lib} {f : EvpFault} {c c' : Record.Conn} {pt : List Iovec} {rb : Bytes}
    {r : Record.Result} (hn : c.outC.nonce.length = 12)
    (hf : (flat pt).length = 16384)
    (h : Record.protect L f c .applicationData pt (.buf rb) = .ok (c', r)) (hok : r.code = .ok) :
    r.out.bytes[16389]? = some (23 ^^^ L.ks c.outC.aead.alg c.outC.aead.key
      (Spec.recordNonce c.outC.nonce c.outC.seq.toNat) 16384) := by
  obtain ⟨c2, r2, h2, hs⟩ := Record.protect_spec L f c .applicationData pt rb hn
  rw [h] at h2
  cases h2
  rcases hs with ⟨_, _, rfl⟩ | ⟨_, _, hs⟩
  · cases hok
  rcases hs with ⟨_, _, rfl⟩ | ⟨t, ht, hs⟩
  · cases hok
  rcases hs with ⟨_, _, rfl⟩ | ⟨_, _, _, _, hs⟩
  · cases hok
  rcases hs with ⟨h, _⟩ | ⟨_, _, _, hs⟩
  · exact absurd hok h
  have ht : t = 23 := by simp [Spec.contentType] at ht; exact ht.symm
  subst ht
  rw [hs, bytes_buf]
  generalize flat pt = p at hf
  simp only [Spec.sealRecord, Spec.aeadSeal, Spec.innerPlaintext, List.replicate_zero]
  generalize hh : Spec.recordHeader ((p ++ [23]).length + 16) = hdr
  have hhl : hdr.length = 5 := by rw [← hh]; rfl
  have hk : 16389 = hdr.length + p.length := by omega
  rw [hk, List.append_assoc, List.getElem?_append_right (by omega), Nat.add_sub_cancel_left,
    List.append_assoc, List.getElem?_append_left (by simp [Spec.stream])]
  simp [Spec.stream, hf]

theorem collect_first {off len need : Nat} (h : 0 < need) (h' : need < len) :
    collect [.mem off len] 0 need = .ok ([.mem off need], [.mem off len], need) := by
  cases need with
  | zero => omega
  | succ need =>
    have : min len (need + 1) = need + 1 := by omega
    rw [collect]
    simp [subSize, Ptr.len, Ptr.slice, bind, Except.bind, pure, Except.pure, this]
    rw [if_pos (by omega)]
    simp
    intro; omega

theorem collect_last {off at' need : Nat} (h : 0 < need) :
    collect [.mem off (at' + need)] at' need = .ok ([.mem (off + at') need], [], 0) := by
  cases need with
  | zero => omega
  | succ need =>
    rw [collect]
    simp [subSize, Ptr.len, Ptr.slice, bind, Except.bind, pure, Except.pure, collect]

theorem fcollect_first {p q : Bytes} (h : 0 < p.length) (h' : 0 < q.length) :
    Frame.collect [.buf (p ++ q)] 0 p.length = .ok ([.buf p], [.buf (p ++ q)], p.length) := by
  obtain ⟨need, hn⟩ : ∃ need, p.length = need + 1 := ⟨p.length - 1, by omega⟩
  rw [hn, Frame.collect]
  have : min (p.length + q.length) (need + 1) = need + 1 := by omega
  simp [subSize, Iovec.len, Iovec.slice, bind, Except.bind, pure, Except.pure, this]
  rw [← hn]
  simp
  intro; omega

theorem fcollect_last {p q : Bytes} (h : 0 < q.length) :
    Frame.collect [.buf (p ++ q)] p.length q.length = .ok ([.buf q], [], 0) := by
  obtain ⟨need, hn⟩ : ∃ need, q.length = need + 1 := ⟨q.length - 1, by omega⟩
  rw [hn, Frame.collect]
  simp [subSize, Iovec.len, Iovec.slice, bind, Except.bind, pure, Except.pure, hn, Frame.collect]
  rw [← hn]; simp

/-- One round of the loop of `Protect`: it agrees with a round over other buffers if the pieces of
this record hold the same bytes. -/
theorem protectLoop_round {L : Lib} {f : Nat → EvpFault} {m out : Bytes} {oo on fuel i : Nat}
    {s : Frame.State} {vs vs' ps : List Ptr} {us us' qs : List Iovec} {at' at'' rem idx n : Nat}
    {first : Bool} (hm : oo + on ≤ m.length) (hl : out.length = on)
    (hg : (first || decide (rem > 0)) = true)
    (hn : (if rem < Frame.kMaxPlaintext then rem else Frame.kMaxPlaintext) = n)
    (hC : collect vs at' n = .ok (ps, vs', at'')) (hC' : Frame.collect us at' n = .ok (qs, us', at''))
    (hi : ∀ v ∈ ps, Inside (replaced m oo out) v) (hp : Placed 0 5 (oo + idx) 0 ps)
    (hv : ps.map (·.view (replaced m oo out)) = qs) (hx : idx ≤ on)
    (K : ∀ c r, Record.protect L (f i) s.conn .applicationData qs (.buf (get out idx (on - idx))) =
        .ok (c, r) → r.code = .ok → r.written = n + 22 → (out.take idx ++ r.out.bytes).length = on →
      protectLoop L f oo on fuel (i + 1) { s with conn := c, evs := s.evs ++ [.sealed r] }
          (replaced m oo (out.take idx ++ r.out.bytes)) vs' at'' false (rem - n) (idx + r.written) =
        (Frame.protectLoop L f .caller fuel (i + 1)
          { s with conn := c, evs := s.evs ++ [.sealed r] } us' at'' false (rem - n)
          (idx + r.written) (.buf (out.take idx ++ r.out.bytes))).map
            fun x => (replaced m oo x.2.2.bytes, x.1, x.2.1)) :
    protectLoop L f oo on (fuel + 1) i s (replaced m oo out) vs at' first rem idx =
      (Frame.protectLoop L f .caller (fuel + 1) i s us at' first rem idx (.buf out)).map
        fun x => (replaced m oo x.2.2.bytes, x.1, x.2.1) := by
  rw [protectLoop, Frame.protectLoop, if_pos hg, if_pos hg]
  have hlen : (Iovec.buf out).len = on := hl
  have hS : subSize on idx = .ok (on - idx) := by simp [subSize, hx]
  have hsl : (Iovec.buf out).slice idx (on - idx) = .ok (.buf (get out idx (on - idx))) := by
    simp only [Iovec.slice]
    rw [if_pos (by omega)]
    rfl
  have hmo : oo + out.length ≤ m.length := by omega
  have hsame := recordProtect_same L (f i) s.conn .applicationData (replaced m oo out) ps
    (oo + idx) (on - idx) (by rw [replaced_length hmo]; omega) hi hp
  rw [hv, get_sub hmo _ _ (by omega)] at hsame
  simp only [bind, Except.bind, hn, hC, hC', hlen, hS, hsl, Frame.State.crypterProtect, hsame]
  cases hP : Record.protect L (f i) s.conn .applicationData qs (.buf (get out idx (on - idx))) with
  | error e => rfl
  | ok x =>
    obtain ⟨c, r⟩ := x
    obtain ⟨_, k1, k2⟩ := protect_kept hP
    rw [get_length (by omega)] at k1
    have hrs := replaced_sub (m := m) (ro := oo) (rb := out) (w := r.out.bytes) (a := idx)
      hmo (by omega)
    have hol : (out.take idx ++ r.out.bytes).length = on := by simp; omega
    have hol' : (Iovec.buf (out.take idx ++ r.out.bytes)).len = on := hol
    simp only [Except.map, pure, Except.pure, Iovec.setBytes, bytes_buf,
      hol', hrs]
    by_cases h1 : r.code ≠ .ok
    · rw [if_pos h1, if_pos h1]; rfl
    rw [if_neg h1, if_neg h1]
    by_cases h2 : r.written ≠ n + c.recordOverhead
    · rw [if_pos h2, if_pos h2]; rfl
    rw [if_neg h2, if_neg h2]
    have := K c r hP (Classical.not_not.1 h1)
      (by rw [Record.recordOverhead_eq] at h2; exact Classical.not_not.1 h2) hol
    rw [this]
    rfl

/-- The end of the loop. -/
theorem protectLoop_end {L : Lib} {f : Nat → EvpFault} {m out : Bytes} {oo on fuel i : Nat}
    {s : Frame.State} {vs : List Ptr} {us : List Iovec} {at' idx : Nat} :
    protectLoop L f oo on (fuel + 1) i s (replaced m oo out) vs at' false 0 idx =
      (Frame.protectLoop L f .caller (fuel + 1) i s us at' false 0 idx (.buf out)).map
        fun x => (replaced m oo x.2.2.bytes, x.1, x.2.1) := by
  rw [protectLoop, Frame.protectLoop]; rfl

theorem protectInto_overwritten (L : Lib) (f : Nat → EvpFault) (s : Frame.State) (m : Bytes)
    (oo on : Nat) (hn : s.conn.outC.nonce.length = 12) (hm : oo + on ≤ m.length)
    (ho : 16429 ≤ on) :
    protectInto L f s m [.mem (oo + 5) 16385] oo on =
      (Frame.protectInto L f s .caller
        [.buf (get m (oo + 5) 16384 ++ [23 ^^^ L.ks s.conn.outC.aead.alg s.conn.outC.aead.key
          (Spec.recordNonce s.conn.outC.nonce s.conn.outC.seq.toNat) 16384])]
        (.buf (get m oo on))).map
        fun r => (replaced m oo r.2.2.bytes, r.1, r.2.1) := by
  generalize hx : 23 ^^^ L.ks s.conn.outC.aead.alg s.conn.outC.aead.key
          (Spec.recordNonce s.conn.outC.nonce s.conn.outC.seq.toNat) 16384 = x
  have hr := replaced_get hm
  have hp : (get m (oo + 5) 16384).length = 16384 := get_length (by omega)
  have hgl : (get m oo on).length = on := get_length hm
  unfold protectInto Frame.protectInto
  have ht1 : (List.map Ptr.len [Ptr.mem (oo + 5) 16385]).sum = 16385 := rfl
  have ht2 : totalLen [.buf (get m (oo + 5) 16384 ++ [x])] = 16385 := by
    simp [totalLen, Iovec.len, hp]
  simp only [ht1, ht2]
  have hd : (decide ((16385 : Nat) = 0)) = false := rfl
  rw [hd]
  have key : ∀ fuel, protectLoop L f oo on (fuel + 1 + 1 + 1) 0 s (replaced m oo (get m oo on))
      [Ptr.mem (oo + 5) 16385] 0 false 16385 0 =
      (Frame.protectLoop L f .caller (fuel + 1 + 1 + 1) 0 s [.buf (get m (oo + 5) 16384 ++ [x])] 0
        false 16385 0 (.buf (get m oo on))).map
        fun r => (replaced m oo r.2.2.bytes, r.1, r.2.1) := by
    intro fuel
    refine protectLoop_round (n := 16384) (ps := [.mem (oo + 5) 16384])
      (qs := [.buf (get m (oo + 5) 16384)]) (us' := [.buf (get m (oo + 5) 16384 ++ [x])])
      (at'' := 16384) hm hgl rfl rfl
      (collect_first (by omega) (by omega)) ?_ ?_ ?_ ?_ (Nat.zero_le _) ?_
    · have := fcollect_first (p := get m (oo + 5) 16384) (q := [x]) (by omega) (by simp)
      rw [hp] at this
      exact this
    · intro v hv
      rw [List.mem_singleton.1 hv, hr]
      simp only [Inside]; omega
    · exact ⟨Or.inr (Or.inl (by omega)), trivial⟩
    · rw [hr]; rfl
    · intro c r hP hok hw hl2
      rw [List.take_zero, List.nil_append] at hl2 ⊢
      rw [Nat.zero_add, hw]
      have hc := collect_last (off := oo + 5) (at' := 16384) (need := 1) (by omega)
      have hfc := fcollect_last (p := get m (oo + 5) 16384) (q := [x]) (by simp)
      rw [hp, List.length_singleton] at hfc
      have h1 : 16384 + 1 = 16385 := by omega
      have h2 : 16385 - 16384 = 1 := by omega
      rw [h1] at hc
      rw [h2]
      have hb := protect_type_byte hn (by simp [flat, bytes_buf, hp]) hP hok
      rw [hx] at hb
      refine protectLoop_round (n := 1) (ps := [.mem (oo + 5 + 16384) 1]) (vs' := [])
        (qs := [.buf [x]]) (us' := []) (at'' := 0) hm hl2 rfl rfl hc
        hfc ?_ ?_ ?_ (by omega) ?_
      · intro v hv
        rw [List.mem_singleton.1 hv]
        simp only [Inside]
        rw [replaced_length (by omega)]; omega
      · exact ⟨Or.inr (Or.inr (Or.inl (by omega))), trivial⟩
      · have : get (replaced m oo r.out.bytes) (oo + 5 + 16384) 1 = [x] := by
          apply List.ext_getElem?
          intro i
          rw [get_get?]
          split
          · have : i = 0 := by omega
            subst this
            rw [replaced_get? (by omega), if_pos (by omega)]
            rw [show oo + 5 + 16384 + 0 - oo = 16389 by omega, hb]; rfl
          · rw [List.getElem?_eq_none (by simp; omega)]
        show [Iovec.buf (get (replaced m oo r.out.bytes) (oo + 5 + 16384) 1)] = _
        rw [this]
      · intro c r hP hok hw hl2
        exact protectLoop_end
  rw [hr] at key
  exact key 16384

end S2A.InPlace
