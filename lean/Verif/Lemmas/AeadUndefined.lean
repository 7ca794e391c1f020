import Verif.Spec.AeadUndefined
import Verif.Lemmas.Aead
import Verif.Lemmas.HalfConn
/-
When the loops of the AEAD crypters are not defined.
-/
namespace S2A.Aead
open Spec (LongAad LongData)

theorem wf_of_len_zero {v : Iovec} (h : v.len = 0) : v.WF := by
  cases v with
  | null n => simpa [Iovec.len, Iovec.WF] using h
  | buf d => trivial

theorem longAad_cons {v : Iovec} {vs} (hv : v.WF) (hl : v.len < 2 ^ 31) :
    LongAad (v :: vs) ↔ LongAad vs := by
  constructor
  · rintro ⟨pre, d, post, e, h1, h2⟩
    cases pre with
    | nil =>
      cases e
      simp only [Iovec.len] at hl
      omega
    | cons x pre =>
      cases e
      exact ⟨pre, d, post, rfl, h1.tail, h2⟩
  · rintro ⟨pre, d, post, rfl, h1, h2⟩
    exact ⟨v :: pre, d, post, rfl, AllWF.cons hv h1, h2⟩

theorem longData_cons {v : Iovec} {vs room} (hv : v.WF) (hl : v.len < 2 ^ 31) (hr : v.len ≤ room) :
    LongData (v :: vs) room ↔ LongData vs (room - v.len) := by
  constructor
  · rintro ⟨pre, d, post, e, h1, h2, h3⟩
    cases pre with
    | nil =>
      cases e
      simp only [Iovec.len] at hl
      omega
    | cons x pre =>
      cases e
      rw [totalLen_cons] at h3
      exact ⟨pre, d, post, rfl, h1.tail, h2, by omega⟩
  · rintro ⟨pre, d, post, rfl, h1, h2, h3⟩
    exact ⟨v :: pre, d, post, rfl, AllWF.cons hv h1, h2, by rw [totalLen_cons]; omega⟩

theorem setAad_undefined {f : EvpFault} {vs : List Iovec} : ∀ {k : Nat} {c : Ctx} {u : UB},
    setAad f k c vs = .error u → u = .intRange ∧ LongAad vs := by
  induction vs with
  | nil => intro k c u h; cases h
  | cons v vs ih =>
    intro k c u h
    unfold setAad at h
    split at h
    · next h0 =>
      obtain ⟨e, h1⟩ := ih h
      exact ⟨e, (longAad_cons (wf_of_len_zero h0) (by omega)).2 h1⟩
    · cases v with
      | null n => cases h
      | buf d =>
        simp only at h
        split at h
        · next hb =>
          cases h
          exact ⟨rfl, [], d, vs, rfl, allWF_nil, hb⟩
        · next hb =>
          split at h
          · cases h
          · obtain ⟨e, h1⟩ := ih h
            refine ⟨e, (longAad_cons (v := .buf d) trivial ?_).2 h1⟩
            simp only [Iovec.len, intBound] at *
            omega

theorem setAad_long {f : EvpFault} {vs : List Iovec} (hf : ∀ j, f.aad j = false) :
    ∀ {k : Nat} {c : Ctx}, LongAad vs → setAad f k c vs = .error .intRange := by
  induction vs with
  | nil => rintro k c ⟨pre, d, post, e, _⟩; simp at e
  | cons v vs ih =>
    intro k c h
    unfold setAad
    by_cases h0 : v.len = 0
    · rw [if_pos h0]
      exact ih ((longAad_cons (wf_of_len_zero h0) (by omega)).1 h)
    · rw [if_neg h0]
      cases v with
      | null n =>
        obtain ⟨pre, d, post, e, h1, _⟩ := h
        cases pre with
        | nil => cases e
        | cons x pre =>
          cases e
          exact absurd h1.head (by simpa [Iovec.WF, Iovec.len] using h0)
      | buf d =>
        simp only
        by_cases hb : intBound ≤ d.length
        · rw [if_pos hb]
        · rw [if_neg hb, if_neg (by simp [hf])]
          refine ih ((longAad_cons (v := .buf d) trivial ?_).1 h)
          simp only [Iovec.len, intBound] at *
          omega

theorem setAad_wf {f : EvpFault} {vs : List Iovec} : ∀ {k : Nat} {c c' : Ctx},
    setAad f k c vs = .ok (.ok c') → AllWF vs := by
  induction vs with
  | nil => intros; exact allWF_nil
  | cons v vs ih =>
    intro k c c' h
    unfold setAad at h
    split at h
    · next h0 => exact AllWF.cons (wf_of_len_zero h0) (ih h)
    · cases v with
      | null n => cases h
      | buf d =>
        simp only at h
        split at h
        · cases h
        split at h
        · cases h
        exact AllWF.cons trivial (ih h)

theorem setAad_result {f : EvpFault} {vs : List Iovec} (hf : ∀ j, f.aad j = false) (hw : AllWF vs)
    (k : Nat) (c : Ctx) :
    setAad f k c vs = .error .intRange ∨ ∃ c', setAad f k c vs = .ok (.ok c') := by
  by_cases hl : LongAad vs
  · exact Or.inl (setAad_long hf hl)
  · have hi : IntLens vs := by
      intro v hv
      cases v with
      | null n =>
        have := hw _ hv
        simp only [Iovec.WF] at this
        simp only [Iovec.len, this]
        decide
      | buf d =>
        by_cases hd : d.length < intBound
        · exact hd
        · obtain ⟨pre, post, e⟩ := List.append_of_mem hv
          refine absurd ⟨pre, d, post, e, fun v hv => hw v ?_, ?_⟩ hl
          · rw [e]; simp [hv]
          · simp only [intBound] at hd
            omega
    obtain ⟨r, e1, _, _, e2⟩ := setAad_spec f vs k c hi
    rw [e1, e2 hf hw]
    exact Or.inr ⟨_, rfl⟩

theorem encLoop_undefined {L : Lib} {f : EvpFault} {vs : List Iovec} :
    ∀ {k : Nat} {c : Ctx} {out : Bytes} {off rem : Nat} {u : UB}, off + rem = out.length →
    encLoop L f k c out off rem vs = .error u → u = .intRange ∧ LongData vs rem := by
  induction vs with
  | nil => intro k c out off rem u _ h; cases h
  | cons v vs ih =>
    intro k c out off rem u ho h
    unfold encLoop at h
    split at h
    · next h0 =>
      obtain ⟨e, h1⟩ := ih ho h
      refine ⟨e, (longData_cons (wf_of_len_zero h0) (by omega) (by omega)).2 ?_⟩
      rw [h0]
      exact h1
    · cases v with
      | null n => cases h
      | buf d =>
        simp only at h
        split at h
        · cases h
        next hr =>
        split at h
        · next hb =>
          cases h
          exact ⟨rfl, [], d, vs, rfl, allWF_nil, hb, by simp; omega⟩
        next hb =>
        split at h
        · cases h
        have hlen : (c.encUpdate L d).1.length = d.length := by simp [Ctx.encUpdate]
        unfold writeAt at h
        rw [if_pos (by omega)] at h
        simp only [exec_bind_ok] at h
        rw [subSize_ok (by omega)] at h
        simp only [exec_bind_ok] at h
        obtain ⟨e, h1⟩ := ih (by simp; omega) h
        refine ⟨e, (longData_cons (v := .buf d) trivial ?_ ?_).2 (by simpa [Iovec.len, hlen] using h1)⟩
        · simp only [Iovec.len, intBound] at *
          omega
        · simp only [Iovec.len]
          omega

theorem encLoop_long {L : Lib} {f : EvpFault} {vs : List Iovec} (hf : ∀ j, f.update j = false) :
    ∀ {k : Nat} {c : Ctx} {out : Bytes} {off rem : Nat}, off + rem = out.length →
    LongData vs rem → encLoop L f k c out off rem vs = .error .intRange := by
  induction vs with
  | nil => rintro k c out off rem _ ⟨pre, d, post, e, _⟩; simp at e
  | cons v vs ih =>
    intro k c out off rem ho h
    unfold encLoop
    by_cases h0 : v.len = 0
    · rw [if_pos h0]
      have := (longData_cons (wf_of_len_zero h0) (by omega) (by omega)).1 h
      rw [h0] at this
      exact ih ho this
    · rw [if_neg h0]
      cases v with
      | null n =>
        obtain ⟨pre, d, post, e, h1, _⟩ := h
        cases pre with
        | nil => cases e
        | cons x pre =>
          cases e
          exact absurd h1.head (by simpa [Iovec.WF, Iovec.len] using h0)
      | buf d =>
        simp only
        have hr : d.length ≤ rem := by
          obtain ⟨pre, d', post, e, _, _, h3⟩ := h
          cases pre with
          | nil => cases e; omega
          | cons x pre =>
            cases e
            simp only [totalLen_cons, Iovec.len] at h3
            omega
        rw [if_neg (by omega)]
        by_cases hb : intBound ≤ d.length
        · rw [if_pos hb]
        · rw [if_neg hb, if_neg (by simp [hf])]
          have hlen : (c.encUpdate L d).1.length = d.length := by simp [Ctx.encUpdate]
          unfold writeAt
          rw [if_pos (by omega)]
          simp only [exec_bind_ok]
          rw [subSize_ok (by omega)]
          simp only [exec_bind_ok]
          have := (longData_cons (v := .buf d) trivial (by simp only [Iovec.len, intBound] at *; omega) hr).1 h
          refine ih (by simp; omega) (by simpa [Iovec.len, hlen] using this)

theorem encLoop_keeps {L : Lib} {f : EvpFault} {vs : List Iovec} :
    ∀ {k : Nat} {c c' : Ctx} {out out' : Bytes} {off rem off' rem' : Nat}, off + rem = out.length →
    encLoop L f k c out off rem vs = .ok (out', .ok (c', off', rem')) →
    out'.length = out.length ∧ off' + rem' = out.length := by
  induction vs with
  | nil => intro k c c' out out' off rem off' rem' ho h; cases h; exact ⟨rfl, ho⟩
  | cons v vs ih =>
    intro k c c' out out' off rem off' rem' ho h
    unfold encLoop at h
    split at h
    · exact ih ho h
    · cases v with
      | null n => cases h
      | buf d =>
        simp only at h
        split at h
        · cases h
        split at h
        · cases h
        split at h
        · cases h
        have hlen : (c.encUpdate L d).1.length = d.length := by simp [Ctx.encUpdate]
        unfold writeAt at h
        rw [if_pos (by omega)] at h
        simp only [exec_bind_ok] at h
        rw [subSize_ok (by omega)] at h
        simp only [exec_bind_ok] at h
        obtain ⟨h1, h2⟩ := ih (by simp; omega) h
        have hl : (out.take off ++ (c.encUpdate L d).1 ++
            out.drop (off + (c.encUpdate L d).1.length)).length = out.length := by
          simp; omega
        exact ⟨h1.trans hl, h2.trans hl⟩

/-! ## Decryption -/

/-- `LongCiphertext` in the middle of the loop: `total` bytes are left, tag included. -/
def LongRest (vs : List Iovec) (total room : Nat) : Prop :=
  ∃ pre d post, vs = pre ++ .buf d :: post ∧ AllWF pre ∧
    2 ^ 31 ≤ min d.length (total - 16 - totalLen pre) ∧
    totalLen pre + min d.length (total - 16 - totalLen pre) ≤ room

theorem longRest_cons {v : Iovec} {vs total room} (hv : v.WF) (hl : min v.len (total - 16) < 2 ^ 31)
    (hr : v.len ≤ room) : LongRest (v :: vs) total room ↔ LongRest vs (total - v.len) (room - v.len) := by
  constructor
  · rintro ⟨pre, d, post, e, h1, h2, h3⟩
    cases pre with
    | nil =>
      cases e
      simp only [Iovec.len, totalLen_nil] at hl h2
      omega
    | cons x pre =>
      cases e
      rw [totalLen_cons] at h2 h3
      have e : total - 16 - (v.len + totalLen pre) = total - v.len - 16 - totalLen pre := by omega
      rw [e] at h2 h3
      exact ⟨pre, d, post, rfl, h1.tail, h2, by omega⟩
  · rintro ⟨pre, d, post, rfl, h1, h2, h3⟩
    have e : total - 16 - (v.len + totalLen pre) = total - v.len - 16 - totalLen pre := by omega
    refine ⟨v :: pre, d, post, rfl, AllWF.cons hv h1, ?_, ?_⟩
    · rw [totalLen_cons, e]; exact h2
    · rw [totalLen_cons, e]; omega

/-- Nothing is left but the tag. -/
theorem not_longRest {vs : List Iovec} {total room : Nat} (h : total ≤ 16) : ¬ LongRest vs total room := by
  rintro ⟨pre, d, post, _, _, h2, _⟩
  have : total - 16 - totalLen pre = 0 := by omega
  rw [this] at h2
  simp at h2

theorem decLoop_tag {L : Lib} {f : EvpFault} {k c out off rem total cur vs} (h : total ≤ 16) :
    decLoop L f k c out off rem total cur vs = .ok (out, .ok ⟨c, cur, total, rem, vs⟩) := by
  cases vs with
  | nil => rfl
  | cons v vs =>
    unfold decLoop
    rw [if_pos h]

/-- One turn of the loop with a buffer. -/
theorem decLoop_buf {L : Lib} {f : EvpFault} {k c out off rem total cur d vs} (ho : off + rem = out.length)
    (ht : ¬ total ≤ 16) (h0 : d.length ≠ 0) (hr : ¬ rem < min d.length (total - 16))
    (hb : ¬ 2 ^ 31 ≤ min d.length (total - 16)) (hf : ¬ f.update k = true) :
    ∃ c' out', out'.length = out.length ∧
      decLoop L f k c out off rem total cur (.buf d :: vs) =
      decLoop L f (k + 1) c' out' (off + min d.length (total - 16)) (rem - min d.length (total - 16))
        (total - min d.length (total - 16)) (d.drop (min d.length (total - 16))) vs := by
  have hm : (if d.length > total - 16 then total - 16 else d.length) = min d.length (total - 16) := by
    split <;> omega
  conv => 
    enter [1, c', 1, out', 2, 1]
    unfold decLoop
  simp only [kTagSize, Iovec.len, hm]
  rw [if_neg ht, if_neg h0, if_neg hr, if_neg (by simpa [intBound] using hb), if_neg hf]
  have hlen : (c.decUpdate L (d.take (min d.length (total - 16)))).1.length = min d.length (total - 16) := by
    simp [Ctx.decUpdate]
  unfold writeAt
  rw [if_pos (by omega)]
  simp only [exec_bind_ok]
  rw [subSize_ok (by omega), subSize_ok (by omega)]
  simp only [exec_bind_ok, hlen]
  refine ⟨_, _, ?_, rfl⟩
  simp
  omega

theorem decLoop_undefined {L : Lib} {f : EvpFault} {vs : List Iovec} :
    ∀ {k : Nat} {c : Ctx} {out : Bytes} {off rem total : Nat} {cur : Bytes} {u : UB},
    off + rem = out.length →
    decLoop L f k c out off rem total cur vs = .error u → u = .intRange ∧ LongRest vs total rem := by
  induction vs with
  | nil => intro k c out off rem total cur u _ h; cases h
  | cons v vs ih =>
    intro k c out off rem total cur u ho h
    by_cases ht : total ≤ 16
    · rw [decLoop_tag ht] at h; cases h
    by_cases h0 : v.len = 0
    · unfold decLoop at h
      rw [if_neg ht, if_pos h0] at h
      obtain ⟨e, h1⟩ := ih ho h
      refine ⟨e, (longRest_cons (wf_of_len_zero h0) (by omega) (by omega)).2 ?_⟩
      rw [h0]
      exact h1
    cases v with
    | null n =>
      unfold decLoop at h
      rw [if_neg ht, if_neg h0] at h
      cases h
    | buf d =>
      have hm : (if d.length > total - 16 then total - 16 else d.length) = min d.length (total - 16) := by
        split <;> omega
      by_cases hr : rem < min d.length (total - 16)
      · unfold decLoop at h
        simp only [kTagSize, hm] at h
        rw [if_neg ht, if_neg h0, if_pos hr] at h
        cases h
      by_cases hb : 2 ^ 31 ≤ min d.length (total - 16)
      · unfold decLoop at h
        simp only [kTagSize, hm] at h
        rw [if_neg ht, if_neg h0, if_neg hr, if_pos (by simpa [intBound] using hb)] at h
        cases h
        exact ⟨rfl, [], d, vs, rfl, allWF_nil, by simpa using hb, by simp; omega⟩
      by_cases hf : f.update k = true
      · unfold decLoop at h
        simp only [kTagSize, hm] at h
        rw [if_neg ht, if_neg h0, if_neg hr, if_neg (by simpa [intBound] using hb), if_pos hf] at h
        cases h
      obtain ⟨c', out', hl, e⟩ := decLoop_buf (L := L) (c := c) (cur := cur) (vs := vs) ho ht h0 hr hb hf
      rw [e] at h
      obtain ⟨e', h1⟩ := ih (by omega) h
      refine ⟨e', ?_⟩
      by_cases hd : d.length ≤ total - 16
      · rw [Nat.min_eq_left hd] at h1 hr hb
        exact (longRest_cons (v := .buf d) trivial (by simp only [Iovec.len]; omega)
          (by simp only [Iovec.len]; omega)).2 h1
      · exact absurd h1 (not_longRest (by omega))

theorem decLoop_long {L : Lib} {f : EvpFault} {vs : List Iovec} (hf : ∀ j, f.update j = false) :
    ∀ {k : Nat} {c : Ctx} {out : Bytes} {off rem total : Nat} {cur : Bytes},
    off + rem = out.length → LongRest vs total rem →
    decLoop L f k c out off rem total cur vs = .error .intRange := by
  induction vs with
  | nil => rintro k c out off rem total cur _ ⟨pre, d, post, e, _⟩; simp at e
  | cons v vs ih =>
    intro k c out off rem total cur ho h
    by_cases ht : total ≤ 16
    · exact absurd h (not_longRest ht)
    by_cases h0 : v.len = 0
    · unfold decLoop
      rw [if_neg ht, if_pos h0]
      have := (longRest_cons (wf_of_len_zero h0) (by omega) (by omega)).1 h
      rw [h0] at this
      exact ih ho this
    cases v with
    | null n =>
      obtain ⟨pre, d, post, e, h1, _⟩ := h
      cases pre with
      | nil => cases e
      | cons x pre =>
        cases e
        exact absurd h1.head (by simpa [Iovec.WF, Iovec.len] using h0)
    | buf d =>
      have hm : (if d.length > total - 16 then total - 16 else d.length) = min d.length (total - 16) := by
        split <;> omega
      have hr : ¬ rem < min d.length (total - 16) := by
        obtain ⟨pre, d', post, e, _, h2, h3⟩ := h
        cases pre with
        | nil =>
          cases e
          simp only [totalLen_nil] at h3
          omega
        | cons x pre =>
          cases e
          simp only [totalLen_cons, Iovec.len] at h2 h3
          omega
      by_cases hb : 2 ^ 31 ≤ min d.length (total - 16)
      · unfold decLoop
        simp only [kTagSize, hm]
        rw [if_neg ht, if_neg h0, if_neg hr, if_pos (by simpa [intBound] using hb)]
      obtain ⟨c', out', hl, e⟩ := decLoop_buf (L := L) (f := f) (k := k) (c := c) (cur := cur) (vs := vs)
        ho ht h0 hr hb (by simp [hf])
      rw [e]
      by_cases hd : d.length ≤ total - 16
      · rw [Nat.min_eq_left hd] at hr hb ⊢
        exact ih (by omega) ((longRest_cons (v := .buf d) trivial (by simp only [Iovec.len]; omega)
          (by simp only [Iovec.len]; omega)).1 h)
      · exfalso
        obtain ⟨pre, d', post, e, _, h2, h3⟩ := h
        cases pre with
        | nil =>
          cases e
          simp only [totalLen_nil] at h2
          omega
        | cons x pre =>
          cases e
          simp only [totalLen_cons, Iovec.len] at h2 h3
          omega

/-- Where the loop stops. -/
theorem decLoop_stops {L : Lib} {f : EvpFault} {vs : List Iovec} :
    ∀ {k : Nat} {c : Ctx} {out ob : Bytes} {off rem total : Nat} {cur : Bytes} {s : DecState},
    off + rem = out.length → total = cur.length + totalLen vs → 16 ≤ total → (16 < total → cur = []) →
    decLoop L f k c out off rem total cur vs = .ok (ob, .ok s) →
    ob.length = out.length ∧ s.total = 16 ∧ s.rem + (total - 16) = rem ∧
      s.cur.length + totalLen s.rest = 16 ∧
      ∃ pre, vs = pre ++ s.rest ∧ AllWF pre := by
  induction vs with
  | nil =>
    intro k c out ob off rem total cur s ho ht h16 hc h
    cases h
    rw [totalLen_nil] at ht
    have : total = 16 := by
      by_cases hx : 16 < total
      · rw [hc hx] at ht
        simp at ht
        omega
      · omega
    refine ⟨rfl, this, by simp only; omega, by simp only [totalLen_nil]; omega, [], rfl, allWF_nil⟩
  | cons v vs ih =>
    intro k c out ob off rem total cur s ho ht h16 hc h
    by_cases h17 : total ≤ 16
    · rw [decLoop_tag h17] at h
      cases h
      exact ⟨rfl, by simp only; omega, by simp only; omega, by simp only; omega, [], rfl, allWF_nil⟩
    have hcur : cur = [] := hc (by omega)
    subst hcur
    simp only [List.length_nil, totalLen_cons, Nat.zero_add] at ht
    by_cases h0 : v.len = 0
    · unfold decLoop at h
      rw [if_neg h17, if_pos h0] at h
      obtain ⟨a, b, c, d, pre, e, g⟩ := ih ho (by simp only [List.length_nil]; omega) h16 (fun _ => rfl) h
      exact ⟨a, b, c, d, v :: pre, by rw [e]; rfl, AllWF.cons (wf_of_len_zero h0) g⟩
    cases v with
    | null n =>
      unfold decLoop at h
      rw [if_neg h17, if_neg h0] at h
      cases h
    | buf d =>
      simp only [Iovec.len] at ht
      have hm : (if d.length > total - 16 then total - 16 else d.length) = min d.length (total - 16) := by
        split <;> omega
      by_cases hr : rem < min d.length (total - 16)
      · unfold decLoop at h
        simp only [kTagSize, hm] at h
        rw [if_neg h17, if_neg h0, if_pos hr] at h
        cases h
      by_cases hb : 2 ^ 31 ≤ min d.length (total - 16)
      · unfold decLoop at h
        simp only [kTagSize, hm] at h
        rw [if_neg h17, if_neg h0, if_neg hr, if_pos (by simpa [intBound] using hb)] at h
        cases h
      by_cases hf : f.update k = true
      · unfold decLoop at h
        simp only [kTagSize, hm] at h
        rw [if_neg h17, if_neg h0, if_neg hr, if_neg (by simpa [intBound] using hb), if_pos hf] at h
        cases h
      obtain ⟨c', out', hl, e⟩ := decLoop_buf (L := L) (c := c) (cur := []) (vs := vs) ho h17 h0 hr hb hf
      rw [e] at h
      obtain ⟨a, b, c, q, pre, e', g⟩ := ih (by omega) (by rw [List.length_drop]; omega) (by omega)
        (by
          intro hx
          apply List.eq_nil_of_length_eq_zero
          rw [List.length_drop]
          omega) h
      exact ⟨a.trans hl, b, by omega, q, .buf d :: pre, by rw [e']; rfl, AllWF.cons trivial g⟩

/-- With room for the data and no null pointer with a length in it the loop does not give up. -/
theorem decLoop_goes_on {L : Lib} {f : EvpFault} {vs : List Iovec} (hf : ∀ j, f.update j = false) :
    ∀ {k : Nat} {c : Ctx} {out ob : Bytes} {off rem total : Nat} {cur : Bytes} {e : StatusCode}
      {pre post : List Iovec},
    off + rem = out.length → vs = pre ++ post → AllWF pre → total - 16 ≤ totalLen pre →
    total - 16 ≤ rem →
    decLoop L f k c out off rem total cur vs ≠ .ok (ob, .error e) := by
  induction vs with
  | nil => intro k c out ob off rem total cur e pre post _ _ _ _ _ h; cases h
  | cons v vs ih =>
    intro k c out ob off rem total cur e pre post ho hv hw hp hr h
    by_cases h17 : total ≤ 16
    · rw [decLoop_tag h17] at h
      cases h
    cases pre with
    | nil => simp at hp; omega
    | cons x pre =>
      cases hv
      rw [totalLen_cons] at hp
      by_cases h0 : v.len = 0
      · unfold decLoop at h
        rw [if_neg h17, if_pos h0] at h
        exact ih ho rfl hw.tail (by omega) hr h
      cases v with
      | null n => exact absurd hw.head (by simpa [Iovec.WF, Iovec.len] using h0)
      | buf d =>
        have hm : (if d.length > total - 16 then total - 16 else d.length) =
            min d.length (total - 16) := by
          split <;> omega
        simp only [Iovec.len] at hp
        by_cases hb : 2 ^ 31 ≤ min d.length (total - 16)
        · unfold decLoop at h
          simp only [kTagSize, hm] at h
          rw [if_neg h17, if_neg h0, if_neg (by omega), if_pos (by simpa [intBound] using hb)] at h
          cases h
        obtain ⟨c', out', hl, e'⟩ := decLoop_buf (L := L) (f := f) (k := k) (c := c) (cur := cur)
          (vs := pre.append post) ho h17 h0 (by omega) hb (by simp [hf])
        rw [e'] at h
        exact ih (by omega) rfl hw.tail (by omega) (by omega) h

theorem gatherTag_result {vs : List Iovec} : ∀ {tag : Bytes}, tag.length + totalLen vs = 16 →
    (AllWF vs ∧ ∃ t, gatherTag tag vs = .ok t ∧ t.length = 16) ∨
    (gatherTag tag vs = .error .nullDeref ∧
      ∃ pre n post, vs = pre ++ .null (n + 1) :: post ∧ AllWF pre) := by
  induction vs with
  | nil => intro tag h; exact Or.inl ⟨allWF_nil, tag, rfl, by simpa using h⟩
  | cons v vs ih =>
    intro tag h
    rw [totalLen_cons] at h
    have go : ∀ w : Bytes, v.WF → v.read 0 v.len = .ok w → w.length = v.len →
        (AllWF (v :: vs) ∧ ∃ t, gatherTag tag (v :: vs) = .ok t ∧ t.length = 16) ∨
        (gatherTag tag (v :: vs) = .error .nullDeref ∧
          ∃ pre n post, v :: vs = pre ++ .null (n + 1) :: post ∧ AllWF pre) := by
      intro w hv hw hl
      have e : gatherTag tag (v :: vs) = gatherTag (tag ++ w) vs := by
        rw [gatherTag, hw]
        simp only [exec_bind_ok, tagAppend, kTagSize]
        rw [if_pos (by omega)]
        rfl
      rw [e]
      rcases ih (tag := tag ++ w) (by rw [List.length_append]; omega) with ⟨h1, h2⟩ | ⟨h1, pre, n, post, h2, h3⟩
      · exact Or.inl ⟨AllWF.cons hv h1, h2⟩
      · exact Or.inr ⟨h1, v :: pre, n, post, by rw [h2]; rfl, AllWF.cons hv h3⟩
    cases v with
    | buf d =>
      refine go d trivial ?_ rfl
      simp [Iovec.read, Iovec.len]
    | null n =>
      cases n with
      | zero => exact go [] rfl rfl rfl
      | succ n => exact Or.inr ⟨rfl, [], n, vs, rfl, allWF_nil⟩

end S2A.Aead
