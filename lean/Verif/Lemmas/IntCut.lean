import Verif.Lemmas.IntCast
/-
Lemmas for C116.
-/
namespace S2A.Aead
open Spec (cut32)

private theorem take_zero_of {d : Bytes} {n : Nat} (h : n = 0) : d.take n = [] := by
  subst h; rfl

/-- Associated data is taken only if no buffer of it is too long, on any machine. -/
theorem setAadI_ok {o : ByteOrder} {f : EvpFault} {k : Nat} {c c' : Ctx} {vs : List Iovec}
    (h : setAadI o f k c vs = .ok (.ok c')) : setAad f k c vs = .ok (.ok c') ∧ IntLens vs := by
  induction vs generalizing k c with
  | nil => exact ⟨h, fun v hv => by cases hv⟩
  | cons v vs ih =>
    unfold setAadI at h
    unfold setAad
    split at h
    · next h0 =>
      rw [if_pos h0]
      obtain ⟨h1, h2⟩ := ih h
      refine ⟨h1, fun w hw => ?_⟩
      rcases List.mem_cons.1 hw with rfl | hw
      · rw [h0]; decide
      · exact h2 w hw
    · next hne =>
      rw [if_neg hne]
      cases v with
      | null n => cases h
      | buf d =>
        simp only at h ⊢
        simp only [Iovec.len] at hne
        cases ht : toInt d.length with
        | none => rw [ht] at h; cases h
        | some n =>
          rw [ht] at h
          simp only at h
          obtain ⟨e1, e2⟩ := toInt_some ht
          split at h
          · cases h
          next hf =>
          split at h
          · cases h
          next hw =>
          have hw : throughInt o n = d.length := by simpa using hw
          have hlt : d.length < 2 ^ 31 ∧ n = d.length := by
            cases o with
            | little =>
              rw [throughInt_little (by omega)] at hw
              omega
            | big =>
              rw [throughInt_big (by omega)] at hw
              omega
          obtain ⟨h1, h2⟩ := ih h
          rw [if_neg (show ¬ intBound ≤ d.length from Nat.not_le.2 hlt.1), if_neg hf]
          rw [hlt.2, List.take_length] at h1
          refine ⟨h1, fun w hw => ?_⟩
          rcases List.mem_cons.1 hw with rfl | hw
          · exact hlt.1
          · exact h2 w hw

/-- The associated data has no defined outcome only if the length of a buffer of it, cut to 32 bits,
is negative. -/
theorem setAadI_error {o : ByteOrder} {f : EvpFault} {k : Nat} {c : Ctx} {vs : List Iovec} {u : UB}
    (h : setAadI o f k c vs = .error u) :
    u = .intRange ∧ ∃ d, .buf d ∈ vs ∧ 2 ^ 31 ≤ d.length % 2 ^ 32 := by
  induction vs generalizing k c with
  | nil => cases h
  | cons v vs ih =>
    have up : (u = .intRange ∧ ∃ d, .buf d ∈ vs ∧ 2 ^ 31 ≤ d.length % 2 ^ 32) →
        u = .intRange ∧ ∃ d, .buf d ∈ v :: vs ∧ 2 ^ 31 ≤ d.length % 2 ^ 32 := by
      rintro ⟨h0, d, h1, h2⟩
      exact ⟨h0, d, List.mem_cons_of_mem _ h1, h2⟩
    unfold setAadI at h
    split at h
    · exact up (ih h)
    · cases v with
      | null n => cases h
      | buf d =>
        simp only at h
        cases ht : toInt d.length with
        | none =>
          rw [ht] at h
          cases h
          refine ⟨rfl, d, by simp, ?_⟩
          unfold toInt at ht
          split at ht
          · cases ht
          · omega
        | some n =>
          rw [ht] at h
          simp only at h
          split at h
          · cases h
          split at h
          · cases h
          exact up (ih h)

/-- What is encrypted are the first bytes of each buffer, as many as its length modulo 2^32. -/
theorem encLoopI_ok {L : Lib} {f : EvpFault} {k : Nat} {c : Ctx} {out out' : Bytes} {off rem : Nat}
    {x : Ctx × Nat × Nat} {vs : List Iovec}
    (h : encLoopI L f k c out off rem vs = .ok (out', .ok x)) :
    encLoop L f k c out off rem (vs.map cut32) = .ok (out', .ok x) ∧ IntLens (vs.map cut32) := by
  induction vs generalizing k c out off rem with
  | nil => exact ⟨h, fun v hv => by cases hv⟩
  | cons v vs ih =>
    unfold encLoopI at h
    rw [List.map_cons]
    unfold encLoop
    split at h
    · next h0 =>
      have hc0 : (cut32 v).len = 0 := by
        cases v with
        | null n => simp only [Iovec.len] at h0; simp [cut32, Iovec.len, h0]
        | buf d => simp only [Iovec.len] at h0; simp [cut32, Iovec.len, h0]
      rw [if_pos hc0]
      obtain ⟨h1, h2⟩ := ih h
      refine ⟨h1, fun w hw => ?_⟩
      rcases List.mem_cons.1 hw with rfl | hw
      · rw [hc0]; decide
      · exact h2 w hw
    · next hne =>
      cases v with
      | null n => cases h
      | buf d =>
        simp only at h
        simp only [Iovec.len] at hne
        split at h
        · cases h
        next hr =>
        cases ht : toInt d.length with
        | none => rw [ht] at h; cases h
        | some n =>
          rw [ht] at h
          simp only at h
          obtain ⟨e1, e2⟩ := toInt_some ht
          have hcut : cut32 (.buf d) = .buf (d.take n) := by rw [e1]; rfl
          have hl : (d.take n).length = n := by
            rw [List.length_take, e1]
            exact Nat.min_eq_left (Nat.mod_le _ _)
          have hlen : (cut32 (.buf d)).len < intBound := by
            rw [hcut]; simp only [Iovec.len, hl]; exact e2
          split at h
          · cases h
          next hf =>
          rw [HalfConn.exec_bind_eq_ok] at h
          obtain ⟨ob, h1, h⟩ := h
          rw [HalfConn.exec_bind_eq_ok] at h
          obtain ⟨rem', h2, h⟩ := h
          obtain ⟨h3, h4⟩ := ih h
          refine ⟨?_, fun w hw => ?_⟩
          · rw [hcut]
            by_cases hn : n = 0
            · rw [if_pos (show (Iovec.buf (d.take n)).len = 0 from hl.trans hn)]
              rw [take_zero_of hn] at h1 h2 h3
              simp only [Ctx.encUpdate, xorKs, List.append_nil, List.length_nil, Nat.add_zero] at h1 h2 h3
              have hob : ob = out := by
                unfold writeAt at h1
                split at h1
                · cases h1; simp
                · cases h1
              have hrem : rem' = rem := by
                unfold subSize at h2
                split at h2
                · cases h2; rfl
                · cases h2
              rw [hob, hrem] at h3
              exact h3
            · rw [if_neg (show ¬ (Iovec.buf (d.take n)).len = 0 from fun e => hn (hl.symm.trans e))]
              simp only
              have hle : n ≤ d.length := by rw [e1]; exact Nat.mod_le _ _
              rw [if_neg (show ¬ rem < (d.take n).length by rw [hl]; omega),
                if_neg (show ¬ intBound ≤ (d.take n).length by rw [hl]; exact Nat.not_le.2 e2),
                if_neg hf]
              simp only [h1, exec_bind_ok, h2, h3]
          · rcases List.mem_cons.1 hw with rfl | hw
            · exact hlen
            · exact h4 w hw

theorem encLoopI_error {L : Lib} {f : EvpFault} {k : Nat} {c : Ctx} {out : Bytes} {off rem : Nat}
    {u : UB} {vs : List Iovec} (hr : off + rem ≤ out.length)
    (h : encLoopI L f k c out off rem vs = .error u) :
    u = .intRange ∧ ∃ d, .buf d ∈ vs ∧ 2 ^ 31 ≤ d.length % 2 ^ 32 := by
  induction vs generalizing k c out off rem with
  | nil => cases h
  | cons v vs ih =>
    have up : (u = .intRange ∧ ∃ d, .buf d ∈ vs ∧ 2 ^ 31 ≤ d.length % 2 ^ 32) →
        u = .intRange ∧ ∃ d, .buf d ∈ v :: vs ∧ 2 ^ 31 ≤ d.length % 2 ^ 32 := by
      rintro ⟨h0, d, h1, h2⟩
      exact ⟨h0, d, List.mem_cons_of_mem _ h1, h2⟩
    unfold encLoopI at h
    split at h
    · exact up (ih hr h)
    · cases v with
      | null n => cases h
      | buf d =>
        simp only at h
        split at h
        · cases h
        next hd =>
        cases ht : toInt d.length with
        | none =>
          rw [ht] at h
          cases h
          refine ⟨rfl, d, by simp, ?_⟩
          unfold toInt at ht
          split at ht
          · cases ht
          · omega
        | some n =>
          rw [ht] at h
          simp only at h
          obtain ⟨e1, e2⟩ := toInt_some ht
          split at h
          · cases h
          have hle : n ≤ d.length := by rw [e1]; exact Nat.mod_le _ _
          have hl : (c.encUpdate L (d.take n)).1.length = n := by
            simp only [Ctx.encUpdate, xorKs_length, List.length_take]; omega
          have hw : writeAt out off (c.encUpdate L (d.take n)).1 = .ok (out.take off ++
              (c.encUpdate L (d.take n)).1 ++ out.drop (off + (c.encUpdate L (d.take n)).1.length)) :=
            if_pos (by rw [hl]; omega)
          have hs : subSize rem (c.encUpdate L (d.take n)).1.length = .ok (rem - n) := by
            rw [hl]; exact subSize_ok (by omega)
          simp only [hw, exec_bind_ok, hs] at h
          refine up (ih ?_ h)
          simp only [hl, List.length_append, List.length_take, List.length_drop]
          omega

/-- With no failure, enough room, and every length modulo 2^32 in range, the loop goes on to the end. -/
theorem encLoopI_cut (L : Lib) (k : Nat) (c : Ctx) (out : Bytes) (off rem : Nat) (vs : List Iovec)
    (hw : AllWF vs) (hr : totalLen vs ≤ rem) (ho : off + rem ≤ out.length)
    (hi : IntLens (vs.map cut32)) :
    encLoopI L .none k c out off rem vs = encLoop L .none k c out off rem (vs.map cut32) := by
  cases he : encLoopI L .none k c out off rem vs with
  | error u =>
    exfalso
    obtain ⟨_, d, h1, h2⟩ := encLoopI_error ho he
    have := hi (cut32 (.buf d)) (List.mem_map_of_mem h1)
    simp only [cut32, Iovec.len, List.length_take] at this
    have hb : intBound = 2 ^ 31 := rfl
    rw [hb] at this
    have := Nat.mod_le d.length (2 ^ 32)
    omega
  | ok x =>
    obtain ⟨out', r⟩ := x
    cases r with
    | ok x => exact (encLoopI_ok he).1.symm
    | error e =>
      exfalso
      induction vs generalizing k c out off rem with
      | nil => cases he
      | cons v vs ih =>
        rw [totalLen_cons] at hr
        have hw' : AllWF vs := fun w hw1 => hw w (List.mem_cons_of_mem _ hw1)
        have hi' : IntLens (vs.map cut32) := fun w hw1 => hi w (by rw [List.map_cons]; exact List.mem_cons_of_mem _ hw1)
        unfold encLoopI at he
        split at he
        · exact ih _ _ _ _ _ hw' (by omega) ho hi' he
        · next hne =>
          cases v with
          | null n =>
            have := hw (.null n) (by simp)
            simp only [Iovec.WF] at this
            simp only [Iovec.len] at hne
            omega
          | buf d =>
            simp only [Iovec.len] at hr
            simp only at he
            rw [if_neg (by omega)] at he
            cases ht : toInt d.length with
            | none => rw [ht] at he; cases he
            | some n =>
              rw [ht] at he
              simp only at he
              obtain ⟨e1, e2⟩ := toInt_some ht
              rw [if_neg (by simp [EvpFault.none])] at he
              have hle : n ≤ d.length := by rw [e1]; exact Nat.mod_le _ _
              have hl : (c.encUpdate L (d.take n)).1.length = n := by
                simp only [Ctx.encUpdate, xorKs_length, List.length_take]; omega
              have hwr : writeAt out off (c.encUpdate L (d.take n)).1 = .ok (out.take off ++
                  (c.encUpdate L (d.take n)).1 ++ out.drop (off + (c.encUpdate L (d.take n)).1.length)) :=
                if_pos (by rw [hl]; omega)
              have hs : subSize rem (c.encUpdate L (d.take n)).1.length = .ok (rem - n) := by
                rw [hl]; exact subSize_ok (by omega)
              simp only [hwr, exec_bind_ok, hs] at he
              refine ih _ _ _ _ _ hw' (by omega) ?_ hi' he
              simp only [hl, List.length_append, List.length_take, List.length_drop]
              omega

/-! ### Decryption -/

/-- Once more bytes are left than the buffers have, the loop does not end well. -/
theorem decLoopI_left {L : Lib} {f : EvpFault} {k : Nat} {c : Ctx} {out out' : Bytes}
    {off rem total : Nat} {cur : Bytes} {s : DecState} {vs : List Iovec}
    (hl : totalLen vs + kTagSize < total)
    (h : decLoopI .little L f k c out off rem total cur vs = .ok (out', .ok s)) :
    kTagSize < s.total := by
  induction vs generalizing k c out off rem total cur with
  | nil => cases h; rw [totalLen_nil] at hl; simpa using hl
  | cons v vs ih =>
    rw [totalLen_cons] at hl
    unfold decLoopI at h
    rw [if_neg (by omega)] at h
    split at h
    · exact ih (by omega) h
    · cases v with
      | null n => cases h
      | buf d =>
        simp only [Iovec.len] at hl
        simp only at h
        generalize hb : (if d.length > total - kTagSize then total - kTagSize else d.length) = b at h
        split at h
        · cases h
        cases ht : toInt b with
        | none => rw [ht] at h; cases h
        | some n =>
          rw [ht] at h
          simp only at h
          split at h
          · cases h
          rw [HalfConn.exec_bind_eq_ok] at h
          obtain ⟨ob, h1, h⟩ := h
          split at h
          · cases h
          next hw =>
          rw [HalfConn.exec_bind_eq_ok] at h
          obtain ⟨rem', h2, h⟩ := h
          rw [HalfConn.exec_bind_eq_ok] at h
          obtain ⟨total', h3, h⟩ := h
          refine ih ?_ h
          unfold subSize at h3
          split at h3
          · cases h3; omega
          · cases h3

/-- If the loop ends well, no buffer was cut. -/
theorem decLoopI_ok {L : Lib} {f : EvpFault} {k : Nat} {c : Ctx} {out out' : Bytes}
    {off rem total : Nat} {cur : Bytes} {s : DecState} {vs : List Iovec}
    (hl : total ≤ kTagSize ∨ totalLen vs ≤ total)
    (h : decLoopI .little L f k c out off rem total cur vs = .ok (out', .ok s))
    (hs : s.total ≤ kTagSize) :
    decLoop L f k c out off rem total cur vs = .ok (out', .ok s) := by
  induction vs generalizing k c out off rem total cur with
  | nil => exact h
  | cons v vs ih =>
    rw [totalLen_cons] at hl
    unfold decLoopI at h
    unfold decLoop
    split at h
    · next h0 => rw [if_pos h0]; exact h
    next ht0 =>
    rw [if_neg ht0]
    split at h
    · next h0 => rw [if_pos h0]; exact ih (Or.inr (by omega)) h
    next hne =>
    rw [if_neg hne]
    cases v with
    | null n => cases h
    | buf d =>
      simp only [Iovec.len] at hl hne
      simp only at h ⊢
      generalize hb : (if d.length > total - kTagSize then total - kTagSize else d.length) = b at h ⊢
      have hb' : b ≤ d.length ∧ (b = d.length ∨ b = total - kTagSize) := by
        subst hb; split <;> omega
      split at h
      · cases h
      next hr =>
      rw [if_neg hr]
      cases ht : toInt b with
      | none => rw [ht] at h; cases h
      | some n =>
        rw [ht] at h
        simp only at h
        obtain ⟨e1, e2⟩ := toInt_some ht
        have hn : n ≤ b := by rw [e1]; exact Nat.mod_le _ _
        split at h
        · cases h
        next hf =>
        rw [HalfConn.exec_bind_eq_ok] at h
        obtain ⟨ob, h1, h⟩ := h
        rw [throughInt_little (by omega)] at h
        rw [if_neg (by omega)] at h
        rw [HalfConn.exec_bind_eq_ok] at h
        obtain ⟨rem', h2, h⟩ := h
        rw [HalfConn.exec_bind_eq_ok] at h
        obtain ⟨total', h3, h⟩ := h
        have h3' : total' = total - n := by
          unfold subSize at h3
          split at h3
          · cases h3; rfl
          · cases h3
        by_cases hbig : b < 2 ^ 31
        · have hnb : n = b := by rw [e1]; exact Nat.mod_eq_of_lt (by omega)
          rw [hnb] at h1 h2 h3 h h3'
          rw [if_neg (show ¬ intBound ≤ b from Nat.not_le.2 hbig), if_neg hf]
          have hl2 : (c.decUpdate L (d.take b)).1.length = b := by
            simp only [Ctx.decUpdate, xorKs_length, List.length_take]; omega
          simp only [h1, exec_bind_ok, hl2, h2, h3]
          refine ih ?_ h
          rw [h3']
          rcases hb'.2 with e | e <;> omega
        · exfalso
          have := decLoopI_left (by rw [h3']; simp only [kTagSize] at *; omega) h
          omega

private theorem setAadI_status {o : ByteOrder} {f : EvpFault} {k : Nat} {c : Ctx} {vs : List Iovec}
    (h : setAadI o f k c vs = .ok (.error .ok)) : False := by
  induction vs generalizing k c with
  | nil => cases h
  | cons v vs ih =>
    unfold setAadI at h
    split at h
    · exact ih h
    · cases v with
      | null n => cases h
      | buf d =>
        simp only at h
        cases ht : toInt d.length with
        | none => rw [ht] at h; cases h
        | some n =>
          rw [ht] at h
          simp only at h
          split at h
          · cases h
          split at h
          · cases h
          exact ih h

private theorem encLoopI_status {L : Lib} {f : EvpFault} {k : Nat} {c : Ctx} {out out' : Bytes}
    {off rem : Nat} {vs : List Iovec}
    (h : encLoopI L f k c out off rem vs = .ok (out', .error .ok)) : False := by
  induction vs generalizing k c out off rem with
  | nil => cases h
  | cons v vs ih =>
    unfold encLoopI at h
    split at h
    · exact ih h
    · cases v with
      | null n => cases h
      | buf d =>
        simp only at h
        split at h
        · cases h
        cases ht : toInt d.length with
        | none => rw [ht] at h; cases h
        | some n =>
          rw [ht] at h
          simp only at h
          split at h
          · cases h
          rw [HalfConn.exec_bind_eq_ok] at h
          obtain ⟨_, _, h⟩ := h
          rw [HalfConn.exec_bind_eq_ok] at h
          obtain ⟨_, _, h⟩ := h
          exact ih h

private theorem decLoopI_status {L : Lib} {f : EvpFault} {o : ByteOrder} {k : Nat} {c : Ctx}
    {out out' cur : Bytes} {off rem total : Nat} {vs : List Iovec}
    (h : decLoopI o L f k c out off rem total cur vs = .ok (out', .error .ok)) : False := by
  induction vs generalizing k c out off rem total cur with
  | nil => cases h
  | cons v vs ih =>
    unfold decLoopI at h
    split at h
    · cases h
    split at h
    · exact ih h
    · cases v with
      | null n => cases h
      | buf d =>
        simp only at h
        generalize hb : (if d.length > total - kTagSize then total - kTagSize else d.length) = b at h
        split at h
        · cases h
        cases ht : toInt b with
        | none => rw [ht] at h; cases h
        | some n =>
          rw [ht] at h
          simp only at h
          split at h
          · cases h
          rw [HalfConn.exec_bind_eq_ok] at h
          obtain ⟨_, _, h⟩ := h
          split at h
          · cases h
          rw [HalfConn.exec_bind_eq_ok] at h
          obtain ⟨_, _, h⟩ := h
          rw [HalfConn.exec_bind_eq_ok] at h
          obtain ⟨_, _, h⟩ := h
          exact ih h

theorem evpEncryptI_ok {o : ByteOrder} {L : Lib} {f : EvpFault} {alg : Alg} {key nonce : Bytes}
    {aad pt : List Iovec} {out : Iovec} {r : Result}
    (h : evpEncryptI o L f alg key nonce aad pt out = .ok r) (hr : r.status = .ok) :
    evpEncrypt L f alg key nonce aad (pt.map cut32) out = .ok r ∧ IntLens aad ∧
      IntLens (pt.map cut32) := by
  unfold evpEncryptI at h
  unfold evpEncrypt
  cases out with
  | null n => cases h
  | buf ob =>
    simp only at h ⊢
    split at h
    · cases h; cases hr
    next hn =>
    rw [if_neg hn]
    split at h
    · cases h; cases hr
    next hi =>
    rw [if_neg hi]
    rw [HalfConn.exec_bind_eq_ok] at h
    obtain ⟨e, h1, h⟩ := h
    cases e with
    | error e =>
      cases h
      cases hr
      exact absurd h1 setAadI_status
    | ok c =>
      obtain ⟨g1, g2⟩ := setAadI_ok h1
      rw [g1, exec_bind_ok]
      simp only at h ⊢
      rw [HalfConn.exec_bind_eq_ok] at h
      obtain ⟨⟨ob', e⟩, h2, h⟩ := h
      cases e with
      | error e =>
        cases h
        cases hr
        exact absurd h2 encLoopI_status
      | ok x =>
        obtain ⟨g3, g4⟩ := encLoopI_ok h2
        rw [g3, exec_bind_ok]
        exact ⟨h, g2, g4⟩

/-- With no failure and room for all the bytes there are, a call with the whole buffers does what a
call with the cut buffers does. -/
theorem evpEncryptI_cut (L : Lib) (alg : Alg) (key nonce : Bytes) (aad pt : List Iovec) (ob : Bytes)
    (ha : IntLens aad) (hw : AllWF pt) (hr : totalLen pt ≤ ob.length)
    (hi : IntLens (pt.map cut32)) :
    evpEncryptI .little L .none alg key nonce aad pt (.buf ob) =
      evpEncrypt L .none alg key nonce aad (pt.map cut32) (.buf ob) := by
  unfold evpEncryptI evpEncrypt
  have e1 : ∀ k c, setAadI .little .none k c aad = setAad .none k c aad :=
    setAadI_eq .little .none .none aad ha rfl
  have e2 : ∀ c, encLoopI L .none 0 c ob 0 ob.length pt =
      encLoop L .none 0 c ob 0 ob.length (pt.map cut32) :=
    fun c => encLoopI_cut L 0 c ob 0 ob.length pt hw hr (by omega) hi
  simp only [e1, e2]
  rfl

theorem evpEncryptI_error {o : ByteOrder} {L : Lib} {f : EvpFault} {alg : Alg} {key nonce : Bytes}
    {aad pt : List Iovec} {ob : Bytes} {u : UB}
    (h : evpEncryptI o L f alg key nonce aad pt (.buf ob) = .error u) :
    ∃ d, .buf d ∈ aad ++ pt ∧ 2 ^ 31 ≤ d.length % 2 ^ 32 := by
  unfold evpEncryptI at h
  simp only at h
  split at h
  · cases h
  next hn =>
  split at h
  · cases h
  next hi =>
  cases h1 : setAadI o f 0 ⟨alg, key, nonce, [], []⟩ aad with
  | error u' =>
    obtain ⟨_, d, h2, h3⟩ := setAadI_error h1
    exact ⟨d, List.mem_append_left _ h2, h3⟩
  | ok e =>
    rw [h1, exec_bind_ok] at h
    cases e with
    | error e => cases h
    | ok c =>
      obtain ⟨g1, g2⟩ := setAadI_ok h1
      simp only at h
      cases h2 : encLoopI L f 0 c ob 0 ob.length pt with
      | error u' =>
        obtain ⟨_, d, h3, h4⟩ := encLoopI_error (by omega) h2
        exact ⟨d, List.mem_append_right _ h3, h4⟩
      | ok x =>
        rw [h2, exec_bind_ok] at h
        obtain ⟨ob', x⟩ := x
        cases x with
        | error e => cases h
        | ok x =>
          exfalso
          obtain ⟨g3, g4⟩ := encLoopI_ok h2
          have hh : evpEncrypt L f alg key nonce aad (pt.map cut32) (.buf ob) = .error u := by
            unfold evpEncrypt
            simp only
            rw [if_neg hn, if_neg hi, g1, exec_bind_ok]
            simp only
            rw [g3, exec_bind_ok]
            exact h
          obtain ⟨_, _, _, hc, _⟩ := evpEncrypt_spec L f alg key nonce aad (pt.map cut32) ob g2 g4
          rw [hh] at hc
          cases hc

theorem evpDecryptI_ok {L : Lib} {f : EvpFault} {alg : Alg} {key nonce : Bytes}
    {aad ct : List Iovec} {out : Iovec} {r : Result}
    (h : evpDecryptI .little L f alg key nonce aad ct out = .ok r) (hr : r.status = .ok) :
    evpDecrypt L f alg key nonce aad ct out = .ok r ∧ IntLens aad := by
  unfold evpDecryptI at h
  unfold evpDecrypt
  split at h
  · cases h
  next hwf =>
  rw [if_neg hwf]
  simp only at h ⊢
  split at h
  · cases h; cases hr
  next h0 =>
  rw [if_neg h0]
  split at h
  · cases h; cases hr
  next hn =>
  rw [if_neg hn]
  split at h
  · cases h; cases hr
  next hi =>
  rw [if_neg hi]
  rw [HalfConn.exec_bind_eq_ok] at h
  obtain ⟨e, h1, h⟩ := h
  cases e with
  | error e =>
    cases h
    cases hr
    exact absurd h1 setAadI_status
  | ok c =>
    obtain ⟨g1, g2⟩ := setAadI_ok h1
    rw [g1, exec_bind_ok]
    simp only at h ⊢
    rw [HalfConn.exec_bind_eq_ok] at h
    obtain ⟨⟨ob', e⟩, h2, h⟩ := h
    cases e with
    | error e =>
      cases h
      cases hr
      exact absurd h2 decLoopI_status
    | ok s =>
      by_cases hs : s.total ≤ kTagSize
      · rw [decLoopI_ok (Or.inr (Nat.le_refl _)) h2 hs, exec_bind_ok]
        exact ⟨h, g2⟩
      · simp only [if_pos (show s.total > kTagSize by omega)] at h
        cases h
        cases hr

/-! ### A decryption that succeeds, whatever the lengths -/

theorem decLoop_done {L : Lib} {f : EvpFault} {vs : List Iovec} {k : Nat} {c : Ctx}
    {pre tail : Bytes} {total : Nat} {cur ob : Bytes} {s : DecState} (hw : AllWF vs)
    (ht : total = cur.length + (flat vs).length) (hcur : 16 < total → cur = [])
    (h16 : 16 ≤ total)
    (h : decLoop L f k c (pre ++ tail) pre.length tail.length total cur vs = .ok (ob, .ok s)) :
    let D := (cur ++ flat vs).take (total - 16)
    let o := xorKs (L.ks c.alg c.key c.nonce) c.ct.length D
    D.length ≤ tail.length ∧ ob = pre ++ o ++ tail.drop o.length ∧
      s.ctx = { c with ct := c.ct ++ D } ∧ s.rem = tail.length - D.length ∧
      s.total = 16 ∧ s.cur ++ flat s.rest = (cur ++ flat vs).drop (total - 16) ∧
      AllWF s.rest := by
  induction vs generalizing k c pre tail total cur with
  | nil =>
    have h0 : total = 16 := by
      simp only [flat_nil, List.length_nil, Nat.add_zero] at ht
      by_cases h : 16 < total
      · have := hcur h; subst this; simp at ht; omega
      · omega
    subst h0
    cases h
    simp [xorKs, allWF_nil]
  | cons v vs ih =>
    unfold decLoop at h
    simp only [kTagSize] at h
    by_cases hle : total ≤ 16
    · rw [if_pos hle] at h
      have h0 : total = 16 := by omega
      subst h0
      cases h
      simp [xorKs]
      exact hw
    rw [if_neg hle] at h
    have hcur' : cur = [] := hcur (by omega)
    subst hcur'
    by_cases h0 : v.len = 0
    · rw [if_pos h0] at h
      have hb : v.bytes = [] := by
        have := hw.head.len_eq
        rw [h0] at this
        exact List.eq_nil_of_length_eq_zero this.symm
      have := ih hw.tail (by simpa [hb] using ht) (fun _ => rfl) h16 h
      simpa [hb] using this
    · rw [if_neg h0] at h
      cases v with
      | null n => cases h
      | buf d =>
        simp only [flat_cons, Iovec.bytes, List.length_append, List.length_nil, Nat.zero_add] at ht
        have hbt : (if d.length > total - 16 then total - 16 else d.length) =
            min d.length (total - 16) := by
          split <;> omega
        simp only [hbt] at h
        by_cases hr : tail.length < min d.length (total - 16)
        · rw [if_pos hr] at h; cases h
        rw [if_neg hr] at h
        split at h
        · cases h
        by_cases hf : f.update k = true
        · rw [if_pos hf] at h; cases h
        · rw [if_neg hf] at h
          simp only [Ctx.decUpdate] at h
          have hbl : (d.take (min d.length (total - 16))).length = min d.length (total - 16) := by
            simp
          rw [writeAt_append _ _ _ (by simp; omega)] at h
          simp only [xorKs_length, hbl] at h
          rw [subSize_ok (by omega), subSize_ok (by omega)] at h
          simp only [exec_bind_ok] at h
          have h' := ih (k := k + 1)
              (c := { c with ct := c.ct ++ d.take (min d.length (total - 16)) })
              (pre := pre ++ xorKs (L.ks c.alg c.key c.nonce) c.ct.length
                (d.take (min d.length (total - 16))))
              (tail := tail.drop (min d.length (total - 16)))
              (total := total - min d.length (total - 16))
              (cur := d.drop (min d.length (total - 16))) hw.tail
              (by simp; omega)
              (by intro h; apply List.drop_eq_nil_of_le; omega)
              (by omega)
              (by simp only [List.length_append, xorKs_length, List.length_drop, hbl]; exact h)
          obtain ⟨g1, g2, g3, g4, g5, g6, g7⟩ := h'
          have hsplit : (([] : Bytes) ++ flat (Iovec.buf d :: vs)).take (total - 16) =
              d.take (min d.length (total - 16)) ++
                (d.drop (min d.length (total - 16)) ++ flat vs).take
                  (total - min d.length (total - 16) - 16) := by
            simp only [flat_cons, Iovec.bytes, List.nil_append]
            by_cases hd : d.length ≤ total - 16
            · rw [Nat.min_eq_left hd, List.take_append, List.take_of_length_le (by omega)]
              simp
              congr 1; omega
            · rw [Nat.min_eq_right (by omega)]
              rw [List.take_append, show total - 16 - d.length = 0 by omega,
                show total - (total - 16) - 16 = 0 by omega]
              simp
          have hdrop : (([] : Bytes) ++ flat (Iovec.buf d :: vs)).drop (total - 16) =
              (d.drop (min d.length (total - 16)) ++ flat vs).drop
                  (total - min d.length (total - 16) - 16) := by
            simp only [flat_cons, Iovec.bytes, List.nil_append]
            by_cases hd : d.length ≤ total - 16
            · rw [Nat.min_eq_left hd, List.drop_append, List.drop_of_length_le (by omega)]
              simp
              congr 1; omega
            · rw [Nat.min_eq_right (by omega)]
              rw [List.drop_append, show total - 16 - d.length = 0 by omega,
                show total - (total - 16) - 16 = 0 by omega]
              simp
          simp only [hsplit, hdrop]
          simp only [List.length_drop, List.length_append, xorKs_length, hbl] at g1 g2 g4 ⊢
          refine ⟨by omega, ?_, ?_, by omega, g5, g6, g7⟩
          · rw [g2, xorKs_append]
            simp [List.drop_drop, hbl]
          · rw [g3]; simp

private theorem decLoop_status {L : Lib} {f : EvpFault} {k : Nat} {c : Ctx}
    {out out' cur : Bytes} {off rem total : Nat} {vs : List Iovec}
    (h : decLoop L f k c out off rem total cur vs = .ok (out', .error .ok)) : False := by
  induction vs generalizing k c out off rem total cur with
  | nil => cases h
  | cons v vs ih =>
    unfold decLoop at h
    split at h
    · cases h
    split at h
    · exact ih h
    · cases v with
      | null n => cases h
      | buf d =>
        simp only at h
        generalize hb : (if d.length > total - kTagSize then total - kTagSize else d.length) = b at h
        split at h
        · cases h
        split at h
        · cases h
        split at h
        · cases h
        rw [HalfConn.exec_bind_eq_ok] at h
        obtain ⟨_, _, h⟩ := h
        rw [HalfConn.exec_bind_eq_ok] at h
        obtain ⟨_, _, h⟩ := h
        rw [HalfConn.exec_bind_eq_ok] at h
        obtain ⟨_, _, h⟩ := h
        exact ih h

/-- A decryption that succeeds opened all the bytes, whatever the lengths. -/
theorem evpDecrypt_done {L : Lib} {f : EvpFault} {alg : Alg} {key nonce : Bytes}
    {aad ct : List Iovec} {out : Iovec} {r : Result} (ha : IntLens aad) (hw : AllWF ct)
    (h : evpDecrypt L f alg key nonce aad ct out = .ok r) (hr : r.status = .ok) :
    ∃ p, Spec.aeadOpen L alg key nonce (flat aad) (flat ct) = some p ∧
      r.written = p.length ∧ p.length ≤ out.len ∧
      r.out = out.setBytes (p ++ out.bytes.drop p.length) := by
  have hk16 : kTagSize = 16 := rfl
  unfold evpDecrypt at h
  split at h
  · cases h
  next ho =>
  have ho : out.WF := by simpa using ho
  have hol : out.bytes.length = out.len := ho.len_eq.symm
  simp only [hw.totalLen_eq] at h
  split at h
  · cases h; cases hr
  next ht =>
  split at h
  · cases h; cases hr
  split at h
  · cases h; cases hr
  next hfi =>
  simp only [kTagSize] at ht
  obtain ⟨e, h1, h2, h3, h4⟩ := setAad_spec f aad 0 ⟨alg, key, nonce, [], []⟩ ha
  rw [h1, exec_bind_ok] at h
  cases e with
  | error e => cases h; exact absurd hr (h3 e rfl)
  | ok c =>
    obtain ⟨hwa, hcx⟩ := h2 c rfl
    simp only at h
    rw [HalfConn.exec_bind_eq_ok] at h
    obtain ⟨⟨ob1, e⟩, g1, h⟩ := h
    cases e with
    | error e =>
      cases h
      cases hr
      exfalso
      exact decLoop_status g1
    | ok s =>
      obtain ⟨q1, q2, q3, q4, q5, q6, q7⟩ := decLoop_done (pre := []) (tail := out.bytes) hw
        (by simp) (fun _ => rfl) (by omega) g1
      simp only [List.nil_append, xorKs_length] at q1 q2 q3 q4 q6
      simp only [] at h
      rw [if_neg (by rw [q5]; simp)] at h
      have hlen : s.cur.length + (flat s.rest).length = 16 := by
        rw [← List.length_append, q6]; simp; omega
      have hta : tagAppend [] s.cur = .ok s.cur := by
        unfold tagAppend kTagSize
        rw [if_pos (by simp; omega)]; rfl
      rw [hta, exec_bind_ok, gatherTag_spec _ _ q7 (by omega), exec_bind_ok, q6] at h
      rw [if_neg (by simp; omega)] at h
      split at h
      · cases h; cases hr
      have htag : s.ctx.tag L = L.mac alg key nonce (flat aad)
          ((flat ct).take ((flat ct).length - 16)) := by
        rw [q3, hcx]; simp [Ctx.tag]
      rw [htag] at h
      split at h
      · cases h; cases hr
      next hm =>
      simp only [Bool.or_eq_true, decide_eq_true_eq, not_or, Classical.not_not] at hm
      have hsub : subSize out.bytes.length s.rem = .ok ((flat ct).length - 16) := by
        rw [subSize_ok (by omega), q4]
        simp only [List.length_take] at q1 ⊢
        congr 1; omega
      rw [hsub, exec_bind_ok] at h
      cases h
      refine ⟨Spec.stream (L.ks alg key nonce) ((flat ct).take ((flat ct).length - 16)),
        ?_, ?_, ?_, ?_⟩
      · unfold Spec.aeadOpen
        rw [if_neg (by omega)]
        simp [hm.2]
      · simp [stream_length]
      · simp only [stream_length]; omega
      · simp only [q2, hcx, ← xorKs_zero]
        simp

end S2A.Aead
