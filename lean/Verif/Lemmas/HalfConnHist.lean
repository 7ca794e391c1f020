import Verif.Lemmas.HalfConn
import Verif.Model.HalfConnHist
namespace S2A.HalfConn

theorem exec_bind_eq_ok {α β : Type _} {x : Exec α} {f : α → Exec β} {b : β} :
    (x >>= f) = .ok b ↔ ∃ a, x = .ok a ∧ f a = .ok b := by
  cases x with
  | error e => simp
  | ok a => simp

/-- Is the half connection refusing AEAD operations? -/
def blocked (hc : HalfConn) : Bool := hc.alwaysFail || hc.overflowed

/-- State after an AEAD operation that was not blocked. -/
def bump (hc : HalfConn) : HalfConn :=
  { hc with seq := hc.seq + 1, overflowed := hc.overflowed || decide (hc.seq + 1 = 0) }

theorem bump_good {s hc} (hg : Good s hc) : Good s (bump hc) :=
  ⟨hg.suite, hg.keySize, hg.nonce, hg.secret, hg.alg⟩

theorem encrypt_inv {L : Lib} {f hc aad pt out hc' call r} (hn : hc.nonce.length = 12)
    (h : encrypt L f hc aad pt out = .ok (hc', call, r)) :
    (blocked hc = true ∧ hc' = hc ∧ call = none ∧ r = ⟨.internal, 0, out⟩) ∨
    (blocked hc = false ∧ hc' = bump hc ∧
      call = some ⟨hc.aead.key, Spec.recordNonce hc.nonce hc.seq.toNat, flat aad, flat pt⟩ ∧
      hc.aead.encrypt L f (Spec.recordNonce hc.nonce hc.seq.toNat) aad pt out = .ok r) := by
  unfold encrypt at h
  split at h
  · next hb => cases h; exact Or.inl ⟨hb, rfl, rfl, rfl⟩
  · next hb =>
    right
    rw [nonceMask_spec hc hn, exec_bind_ok] at h
    simp only [exec_bind_eq_ok] at h
    obtain ⟨r', h1, h2⟩ := h
    cases h2
    exact ⟨by simpa [blocked] using hb, rfl, rfl, h1⟩

theorem decrypt_inv {L : Lib} {f hc aad ct out hc' call r} (hn : hc.nonce.length = 12)
    (h : decrypt L f hc aad ct out = .ok (hc', call, r)) :
    (blocked hc = true ∧ hc' = hc ∧ call = none ∧ r = ⟨.internal, 0, out⟩) ∨
    (blocked hc = false ∧ hc' = bump hc ∧
      call = some ⟨hc.aead.key, Spec.recordNonce hc.nonce hc.seq.toNat, flat aad, flat ct⟩ ∧
      hc.aead.decrypt L f (Spec.recordNonce hc.nonce hc.seq.toNat) aad ct out = .ok r) := by
  unfold decrypt at h
  split at h
  · next hb => cases h; exact Or.inl ⟨hb, rfl, rfl, rfl⟩
  · next hb =>
    right
    rw [nonceMask_spec hc hn, exec_bind_ok] at h
    simp only [exec_bind_eq_ok] at h
    obtain ⟨r', h1, h2⟩ := h
    cases h2
    exact ⟨by simpa [blocked] using hb, rfl, rfl, h1⟩

/-- One step, by kind of call. -/
theorem step_inv {L : Lib} {s hc op hc' ev} (hg : Good s hc) (h : step L hc op = .ok (hc', ev)) :
    (op.isAead = true ∧ blocked hc = true ∧ hc' = hc ∧ ev = .aead none .internal) ∨
    (op.isAead = true ∧ blocked hc = false ∧ hc' = bump hc ∧ ∃ aad data st, ev =
      .aead (some ⟨hc.aead.key, Spec.recordNonce hc.nonce hc.seq.toNat, aad, data⟩) st) ∨
    (op.isAead = false ∧ hc' = updated L s hc ∧ ev = .updated .ok) ∨
    (op.isAead = false ∧ hc'.alwaysFail = true ∧ Good s hc' ∧ ∃ st, st ≠ .ok ∧ ev = .updated st) := by
  cases op with
  | encrypt f aad pt out =>
    simp only [step, exec_bind_eq_ok] at h
    obtain ⟨⟨hc1, call, r⟩, h1, h2⟩ := h
    cases h2
    rcases encrypt_inv hg.nonce h1 with ⟨a, b, c, d⟩ | ⟨a, b, c, d⟩
    · subst b c d; exact Or.inl ⟨rfl, a, rfl, rfl⟩
    · subst b c; exact Or.inr (Or.inl ⟨rfl, a, rfl, _, _, _, rfl⟩)
  | decrypt f aad ct out =>
    simp only [step, exec_bind_eq_ok] at h
    obtain ⟨⟨hc1, call, r⟩, h1, h2⟩ := h
    cases h2
    rcases decrypt_inv hg.nonce h1 with ⟨a, b, c, d⟩ | ⟨a, b, c, d⟩
    · subst b c d; exact Or.inl ⟨rfl, a, rfl, rfl⟩
    · subst b c; exact Or.inr (Or.inl ⟨rfl, a, rfl, _, _, _, rfl⟩)
  | updateKey f =>
    simp only [step, exec_bind_eq_ok] at h
    obtain ⟨⟨hc1, st⟩, h1, h2⟩ := h
    cases h2
    obtain ⟨hc2, st2, g1, g2, g3, g4, g5⟩ := updateKey_spec L f s hc hg
    rw [h1] at g1
    cases g1
    by_cases hs : st = .ok
    · subst hs; exact Or.inr (Or.inr (Or.inl ⟨rfl, g3 rfl, rfl⟩))
    · exact Or.inr (Or.inr (Or.inr ⟨rfl, (g4 hs).1, g2, _, hs, rfl⟩))

theorem run_cons {L : Lib} {hc op ops hc' evs} (h : run L hc (op :: ops) = .ok (hc', evs)) :
    ∃ hc1 ev es, step L hc op = .ok (hc1, ev) ∧ run L hc1 ops = .ok (hc', es) ∧
      evs = ev :: es := by
  simp only [run, exec_bind_eq_ok] at h
  obtain ⟨⟨hc1, ev⟩, h1, ⟨hc2, es⟩, h2, h3⟩ := h
  cases h3
  exact ⟨_, _, _, h1, h2, rfl⟩

theorem run_append {L : Lib} {ops1 ops2 hc hc' evs}
    (h : run L hc (ops1 ++ ops2) = .ok (hc', evs)) :
    ∃ hc1 es1 es2, run L hc ops1 = .ok (hc1, es1) ∧ run L hc1 ops2 = .ok (hc', es2) ∧
      evs = es1 ++ es2 ∧ es1.length = ops1.length := by
  induction ops1 generalizing hc evs with
  | nil => exact ⟨hc, [], evs, rfl, h, rfl, rfl⟩
  | cons op ops ih =>
    obtain ⟨hc1, ev, es, h1, h2, h3⟩ := run_cons h
    obtain ⟨hc2, e1, e2, g1, g2, g3, g4⟩ := ih h2
    exact ⟨hc2, ev :: e1, e2, by simp [run, h1, g1], g2, by simp [h3, g3], by simp [g4]⟩

theorem step_good {L : Lib} {s hc op hc' ev} (hg : Good s hc)
    (h : step L hc op = .ok (hc', ev)) : Good s hc' := by
  rcases step_inv hg h with ⟨_, a, b, c⟩ | ⟨_, a, b, _⟩ | ⟨_, a, b⟩ | ⟨_, a, b, _⟩
  · rw [b]; exact hg
  · rw [b]; exact bump_good hg
  · rw [a]; exact updated_good L s hc hg
  · exact b

theorem run_good {L : Lib} {s ops hc hc' evs} (hg : Good s hc)
    (h : run L hc ops = .ok (hc', evs)) : Good s hc' := by
  induction ops generalizing hc evs with
  | nil => cases h; exact hg
  | cons op ops ih =>
    obtain ⟨hc1, ev, es, g1, g2, g3⟩ := run_cons h
    exact ih (step_good hg g1) g2

/-- A failed direction stays failed and never calls the AEAD. -/
theorem alwaysFail_run {L : Lib} {s ops hc hc' evs} (hg : Good s hc) (hf : hc.alwaysFail = true)
    (h : run L hc ops = .ok (hc', evs)) :
    hc'.alwaysFail = true ∧ ∀ ev ∈ evs, ev = .aead none .internal ∨ ∃ st, ev = .updated st := by
  induction ops generalizing hc evs with
  | nil => cases h; exact ⟨hf, by simp⟩
  | cons op ops ih =>
    obtain ⟨hc1, ev, es, h1, h2, h3⟩ := run_cons h
    subst h3
    have key : Good s hc1 ∧ hc1.alwaysFail = true ∧
        (ev = .aead none .internal ∨ ∃ st, ev = .updated st) := by
      rcases step_inv hg h1 with ⟨_, a, b, c⟩ | ⟨_, a, b, _⟩ | ⟨_, a, b⟩ | ⟨_, a, b, st, c, d⟩
      · subst b; exact ⟨hg, hf, Or.inl c⟩
      · simp [blocked, hf] at a
      · subst a; exact ⟨updated_good L s hc hg, hf, Or.inr ⟨_, b⟩⟩
      · exact ⟨b, a, Or.inr ⟨_, d⟩⟩
    obtain ⟨k1, k2, k3⟩ := key
    obtain ⟨i1, i2⟩ := ih k1 k2 h2
    exact ⟨i1, by simpa using ⟨k3, i2⟩⟩

/-! ### Injectivity of the nonce -/

theorem digits_inj (a b : Nat) (ha : a < 2 ^ 64) (hb : b < 2 ^ 64)
    (h : (List.range 8).map (fun i => UInt8.ofNat (a / 256 ^ (7 - i))) =
      (List.range 8).map (fun i => UInt8.ofNat (b / 256 ^ (7 - i)))) : a = b := by
  simp only [show List.range 8 = [0, 1, 2, 3, 4, 5, 6, 7] by decide, List.map_cons, List.map_nil,
    List.cons.injEq, and_true, ← UInt8.toNat_inj, UInt8.toNat_ofNat', Nat.reducePow,
    Nat.reduceSub, Nat.div_one] at h
  omega

theorem zipWith_xor_inj (iv a b : Bytes) (hl : a.length = b.length) (hi : iv.length = a.length)
    (h : List.zipWith (· ^^^ ·) iv a = List.zipWith (· ^^^ ·) iv b) : a = b := by
  induction iv generalizing a b with
  | nil =>
    cases a with
    | nil => cases b with
      | nil => rfl
      | cons => simp at hl
    | cons => simp at hi
  | cons x iv ih =>
    cases a with
    | nil => simp at hi
    | cons y a => cases b with
      | nil => simp at hl
      | cons z b =>
        simp only [List.zipWith_cons_cons, List.cons.injEq, UInt8.xor_right_inj] at h
        rw [h.1, ih a b (by simpa using hl) (by simpa using hi) h.2]

theorem recordNonce_inj (iv : Bytes) (a b : Nat) (hi : iv.length = 12) (ha : a < 2 ^ 64)
    (hb : b < 2 ^ 64) (h : Spec.recordNonce iv a = Spec.recordNonce iv b) : a = b := by
  unfold Spec.recordNonce at h
  have := zipWith_xor_inj _ _ _ (by simp) (by simp [hi]) h
  exact digits_inj a b ha hb (List.append_cancel_left this)

/-! ### Nonce uniqueness -/

/-- A direction that makes no AEAD call any more. -/
theorem epochNonces_alwaysFail {e : Nat} {evs : List Event}
    (h : ∀ ev ∈ evs, ev = .aead none .internal ∨ ∃ st, ev = .updated st) :
    Spec.epochNonces e (trace evs) = [] := by
  induction evs generalizing e with
  | nil => rfl
  | cons ev es ih =>
    have hes : ∀ ev ∈ es, ev = .aead none .internal ∨ ∃ st, ev = .updated st :=
      fun x hx => h x (by simp [hx])
    rcases h ev (by simp) with h1 | ⟨st, h1⟩
    · subst h1; simpa [trace] using ih hes
    · subst h1
      cases st <;> simp only [trace, Spec.epochNonces] <;> exact ih hes

theorem seq_succ_toNat (q : UInt64) : (q + 1 = 0 ∧ q.toNat = 2 ^ 64 - 1) ∨
    (q + 1 ≠ 0 ∧ (q + 1).toNat = q.toNat + 1) := by
  have h : (q + 1).toNat = (q.toNat + 1) % 2 ^ 64 := by rw [UInt64.toNat_add]; rfl
  have hq := q.toNat_lt
  by_cases hz : q + 1 = 0
  · left
    rw [hz] at h
    simp at h
    refine ⟨hz, ?_⟩
    omega
  · right
    refine ⟨hz, ?_⟩
    have : (q + 1).toNat ≠ 0 := by
      intro h0; apply hz; apply UInt64.toNat_inj.1; simpa using h0
    omega

theorem nonces_inv {L : Lib} {s ops hc hc' evs} (e : Nat) (hg : Good s hc)
    (h : run L hc ops = .ok (hc', evs)) :
    (Spec.epochNonces e (trace evs)).Nodup ∧
    ∀ p ∈ Spec.epochNonces e (trace evs), e ≤ p.1 ∧
      (p.1 = e → hc.overflowed = false ∧ ∃ k, hc.seq.toNat ≤ k ∧ k < 2 ^ 64 ∧
        p.2 = Spec.recordNonce hc.nonce k) := by
  induction ops generalizing hc evs e with
  | nil => cases h; simp [trace, Spec.epochNonces]
  | cons op ops ih =>
    obtain ⟨hc1, ev, es, h1, h2, h3⟩ := run_cons h
    subst h3
    rcases step_inv hg h1 with ⟨_, a, b, c⟩ | ⟨_, a, b, aad, data, st, c⟩ | ⟨_, a, b⟩ |
      ⟨_, a, b, st, c, d⟩
    · subst b c
      simpa [trace, Spec.epochNonces] using ih e hg h2
    · subst b c
      simp only [trace, Spec.epochNonces]
      obtain ⟨i1, i2⟩ := ih e (bump_good hg) h2
      have hov : hc.overflowed = false := by simp [blocked] at a; exact a.2
      have hov' : ∀ k, (bump hc).overflowed = false → (bump hc).seq.toNat ≤ k →
          hc.seq.toNat + 1 ≤ k := by
        intro k ho hk
        simp only [bump, hov, Bool.false_or, decide_eq_false_iff_not] at ho hk
        rcases seq_succ_toNat hc.seq with ⟨q, _⟩ | ⟨_, q⟩
        · exact absurd q ho
        · omega
      refine ⟨List.nodup_cons.2 ⟨?_, i1⟩, ?_⟩
      · intro hm
        obtain ⟨_, j⟩ := i2 _ hm
        obtain ⟨jo, k, j1, j2, j3⟩ := j rfl
        have := recordNonce_inj hc.nonce _ _ hg.nonce hc.seq.toNat_lt j2 j3
        have := hov' k jo j1
        omega
      · intro p hp
        rcases List.mem_cons.1 hp with rfl | hp
        · exact ⟨Nat.le_refl _, fun _ => ⟨hov, hc.seq.toNat, Nat.le_refl _, hc.seq.toNat_lt, rfl⟩⟩
        · obtain ⟨j0, j⟩ := i2 _ hp
          refine ⟨j0, fun he => ?_⟩
          obtain ⟨jo, k, j1, j2, j3⟩ := j he
          exact ⟨hov, k, by have := hov' k jo j1; omega, j2, j3⟩
    · subst a b
      simp only [trace, Spec.epochNonces]
      obtain ⟨i1, i2⟩ := ih (e + 1) (updated_good L s hc hg) h2
      refine ⟨i1, fun p hp => ?_⟩
      have := (i2 p hp).1
      exact ⟨by omega, fun he => by omega⟩
    · subst d
      have hes := (alwaysFail_run b a h2).2
      have hev : ∀ ev ∈ Event.updated st :: es, ev = .aead none .internal ∨ ∃ st, ev = .updated st := by
        intro x hx
        rcases List.mem_cons.1 hx with rfl | hx
        · exact Or.inr ⟨_, rfl⟩
        · exact hes x hx
      rw [epochNonces_alwaysFail hev]
      simp

/-! ### The key schedule over a history -/

/-- The half connection is in epoch `n`. -/
def InEpoch (L : Lib) (s : Spec.Suite) (secret : Bytes) (n : Nat) (hc : HalfConn) : Prop :=
  hc.secret = Spec.secretAfter L s.hash secret n ∧
  hc.nonce = Spec.trafficIv L s.hash (Spec.secretAfter L s.hash secret n) ∧
  hc.aead.key = Spec.trafficKey L s.hash (Spec.secretAfter L s.hash secret n) s.keyLen

theorem follows_alwaysFail {L : Lib} {s secret} {n k : Nat} {evs : List Event}
    (h : ∀ ev ∈ evs, ev = .aead none .internal ∨ ∃ st, ev = .updated st) :
    Spec.Follows L s secret n k (trace evs) := by
  induction evs generalizing n k with
  | nil => trivial
  | cons ev es ih =>
    have hes : ∀ ev ∈ es, ev = .aead none .internal ∨ ∃ st, ev = .updated st :=
      fun x hx => h x (by simp [hx])
    rcases h ev (by simp) with h1 | ⟨st, h1⟩
    · subst h1; exact ih hes
    · subst h1
      cases st <;> exact ih hes

theorem follows_run {L : Lib} {s secret ops hc hc' evs} (n : Nat) (hg : Good s hc)
    (hE : InEpoch L s secret n hc) (k : Nat)
    (hk : hc.overflowed = false → k = hc.seq.toNat)
    (h : run L hc ops = .ok (hc', evs)) : Spec.Follows L s secret n k (trace evs) := by
  induction ops generalizing hc evs n k with
  | nil => cases h; trivial
  | cons op ops ih =>
    obtain ⟨hc1, ev, es, h1, h2, h3⟩ := run_cons h
    subst h3
    rcases step_inv hg h1 with ⟨_, a, b, c⟩ | ⟨_, a, b, aad, data, st, c⟩ | ⟨_, a, b⟩ |
      ⟨_, a, b, st, c, d⟩
    · rw [b] at h2
      subst c
      have := ih n hg hE k hk h2
      exact this
    · subst b c
      have hov : hc.overflowed = false := by simp [blocked] at a; exact a.2
      have hks := hk hov
      refine ⟨hE.2.2, by rw [hks, ← hE.2.1], by rw [hks]; exact hc.seq.toNat_lt, ?_⟩
      refine ih n (bump_good hg) hE (k + 1) ?_ h2
      intro ho
      simp only [bump, hov, Bool.false_or, decide_eq_false_iff_not] at ho ⊢
      rcases seq_succ_toNat hc.seq with ⟨q, _⟩ | ⟨_, q⟩
      · exact absurd q ho
      · omega
    · subst a b
      refine ih (n + 1) (updated_good L s hc hg) ?_ 0 (fun _ => rfl) h2
      refine ⟨?_, ?_, ?_⟩ <;> simp only [updated, hE.1, Spec.secretAfter]
    · subst d
      have hes := (alwaysFail_run b a h2).2
      refine follows_alwaysFail ?_
      intro x hx
      rcases List.mem_cons.1 hx with rfl | hx
      · exact Or.inr ⟨_, rfl⟩
      · exact hes x hx

/-! ### Exhaustion -/

theorem exhaustion {L : Lib} {s ops hc hc' evs} (hg : Good s hc) (hf : hc.alwaysFail = false)
    (hops : ∀ op ∈ ops, op.isAead = true) (left : Nat)
    (hleft : left = if hc.overflowed then 0 else 2 ^ 64 - hc.seq.toNat)
    (h : run L hc ops = .ok (hc', evs)) :
    evs.length = ops.length ∧
    ∀ i (hi : i < evs.length),
      (i < left → ∃ c st, evs[i] = .aead (some c) st) ∧
      (left ≤ i → evs[i] = .aead none .internal) := by
  induction ops generalizing hc evs left with
  | nil => cases h; simp
  | cons op ops ih =>
    obtain ⟨hc1, ev, es, h1, h2, h3⟩ := run_cons h
    subst h3
    have hop := hops op (by simp)
    have hops' : ∀ op ∈ ops, op.isAead = true := fun o ho => hops o (by simp [ho])
    rcases step_inv hg h1 with ⟨_, a, b, c⟩ | ⟨_, a, b, aad, data, st, c⟩ | ⟨a, _⟩ | ⟨a, _⟩
    · rw [b] at h2
      subst c
      have ho : hc.overflowed = true := by simpa [blocked, hf] using a
      have hl : left = 0 := by rw [hleft, if_pos ho]
      obtain ⟨i1, i2⟩ := ih hg hf hops' left hleft h2
      refine ⟨by simp [i1], fun i hi => ⟨by omega, fun _ => ?_⟩⟩
      cases i with
      | zero => rfl
      | succ i =>
        simp only [List.length_cons] at hi
        simpa using (i2 i (by omega)).2 (by omega)
    · subst b c
      have hov : hc.overflowed = false := by simp [blocked] at a; exact a.2
      have hlt := hc.seq.toNat_lt
      have hl : left = 2 ^ 64 - hc.seq.toNat := by simpa [hov] using hleft
      obtain ⟨i1, i2⟩ := ih (bump_good hg) hf hops' (left - 1) (by
        simp only [bump, hov, Bool.false_or, decide_eq_true_eq]
        rcases seq_succ_toNat hc.seq with ⟨q1, q2⟩ | ⟨q1, q2⟩
        · rw [if_pos q1]; omega
        · rw [if_neg q1]; omega) h2
      refine ⟨by simp [i1], fun i hi => ?_⟩
      cases i with
      | zero => exact ⟨fun _ => ⟨_, _, rfl⟩, fun h0 => by omega⟩
      | succ i =>
        simp only [List.length_cons] at hi
        have := i2 i (by omega)
        exact ⟨fun h => by simpa using this.1 (by omega), fun h => by simpa using this.2 (by omega)⟩
    · rw [hop] at a; cases a
    · rw [hop] at a; cases a

end S2A.HalfConn
