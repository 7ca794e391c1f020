import Verif.Model.Hkdf
import Verif.Spec.Hkdf
import Verif.Lemmas.Base
namespace S2A.Hkdf

/-- T(i+1) | … | T(i+m). -/
def tcat (H : Bytes → Bytes → Bytes) (prk info : Bytes) (i m : Nat) : Bytes :=
  ((List.range m).map fun j => Spec.hkdfT H prk info (i + j + 1)).flatten

theorem tcat_zero (H prk info i) : tcat H prk info i 0 = [] := by simp [tcat]

theorem tcat_succ (H prk info i m) :
    tcat H prk info i (m + 1) = Spec.hkdfT H prk info (i + 1) ++ tcat H prk info (i + 1) m := by
  unfold tcat
  rw [List.range_succ_eq_map]
  simp only [List.map_cons, List.flatten_cons, List.map_map, Nat.add_zero]
  congr 3
  funext j
  simp only [Function.comp]
  congr 1
  omega

theorem loop_spec (L : Lib) (h : HashFn) (f : HkdfFault) (prk info : Bytes)
    (m i : Nat) (buffer pre tail : Bytes)
    (hb : i ≠ 0 → buffer = Spec.hkdfT (L.hmac h) prk info i) :
    ∃ st out', loop L h f prk info m i buffer pre.length (pre ++ tail) = .ok (st, out') ∧
      out'.length = (pre ++ tail).length ∧
      (st = .ok ∨ st = .internal) ∧
      (st = .ok → out' = pre ++ (tcat (L.hmac h) prk info i m).take tail.length ++
        tail.drop (tcat (L.hmac h) prk info i m).length) ∧
      (st ≠ .ok → m ≤ 1 → out' = pre ++ tail) ∧
      ((∀ n, f.step n = false) → st = .ok) := by
  induction m generalizing i buffer pre tail with
  | zero =>
    exact ⟨_, _, rfl, rfl, Or.inl rfl, fun _ => by simp [tcat_zero], fun h => absurd rfl h,
      fun _ => rfl⟩
  | succ m ih =>
    unfold loop
    by_cases hf : f.step i = true
    · rw [if_pos hf]
      exact ⟨_, _, rfl, rfl, Or.inr rfl, (by intro h; cases h), (fun _ _ => rfl),
        fun h => by simp [h] at hf⟩
    rw [if_neg hf]
    have hmsg : L.hmac h prk ((if i = 0 then [] else buffer) ++ info ++ [UInt8.ofNat (i + 1)]) =
        Spec.hkdfT (L.hmac h) prk info (i + 1) := by
      rw [Spec.hkdfT]
      by_cases hi : i = 0
      · subst hi; rfl
      · rw [if_neg hi, hb hi]
    simp only [hmsg]
    have hT : (Spec.hkdfT (L.hmac h) prk info (i + 1)).length = h.digestSize := by
      rw [Spec.hkdfT, L.hmac_len]
    have htodo : todoLen pre.length h.digestSize (pre ++ tail).length =
        .ok (min h.digestSize tail.length) := by
      unfold todoLen
      simp only [List.length_append]
      split
      · rw [subSize_ok (by omega)]; congr 1; omega
      · congr 1; omega
    simp only [htodo, exec_bind_ok]
    have hl : ((Spec.hkdfT (L.hmac h) prk info (i + 1)).take (min h.digestSize tail.length)).length =
        min h.digestSize tail.length := by
      rw [List.length_take, hT]; omega
    rw [writeAt_append _ _ _ (by rw [hl]; omega), exec_bind_ok]
    obtain ⟨st, out', h1, h2, h3, h4, h5, h6⟩ := ih (i + 1)
      (Spec.hkdfT (L.hmac h) prk info (i + 1))
      (pre ++ (Spec.hkdfT (L.hmac h) prk info (i + 1)).take (min h.digestSize tail.length))
      (tail.drop (min h.digestSize tail.length)) (fun _ => rfl)
    rw [List.length_append, hl] at h1
    rw [hl]
    refine ⟨st, out', h1, ?_, h3, ?_, ?_, h6⟩
    · rw [h2]; simp [hT]; omega
    · intro hs
      rw [h4 hs, tcat_succ]
      by_cases hd : h.digestSize ≤ tail.length
      · have e1 : (Spec.hkdfT (L.hmac h) prk info (i + 1)).take h.digestSize =
            Spec.hkdfT (L.hmac h) prk info (i + 1) := List.take_of_length_le (by omega)
        have e2 : (Spec.hkdfT (L.hmac h) prk info (i + 1)).take tail.length =
            Spec.hkdfT (L.hmac h) prk info (i + 1) := List.take_of_length_le (by omega)
        rw [Nat.min_eq_left hd, e1, List.take_append, hT, e2]
        simp [List.drop_drop, hT]
      · rw [Nat.min_eq_right (by omega), List.take_append, hT,
          show tail.length - h.digestSize = 0 by omega]
        simp [hT]
        omega
    · intro hs hm
      have : m = 0 := by omega
      subst this
      simp [loop] at h1
      exact absurd h1.1.symm hs

theorem tcat_length (L : Lib) (h : HashFn) (prk info i m) :
    (tcat (L.hmac h) prk info i m).length = m * h.digestSize := by
  induction m generalizing i with
  | zero => simp [tcat_zero]
  | succ m ih =>
    rw [tcat_succ, List.length_append, ih, Spec.hkdfT, L.hmac_len, Nat.succ_mul]; omega

theorem hkdfExpand_eq (L : Lib) (h : HashFn) (prk info len) :
    Spec.hkdfExpand (L.hmac h) h.digestSize prk info len =
      (tcat (L.hmac h) prk info 0 ((len + h.digestSize - 1) / h.digestSize)).take len := by
  simp [Spec.hkdfExpand, tcat]

theorem blocks_mul (d n : Nat) (hd : 0 < d) : n ≤ (n + d - 1) / d * d := by
  have h1 := Nat.div_add_mod (n + d - 1) d
  have h2 := Nat.mod_lt (n + d - 1) hd
  rw [Nat.mul_comm] at h1
  omega

theorem deriveSecret_spec (L : Lib) (f : HkdfFault) (h : HashFn) (prk info out : Bytes) :
    ∃ st out', deriveSecret L f h prk info out = .ok (st, out') ∧ out'.length = out.length ∧
      (st = .ok → h ≠ .other ∧ h.digestSize ≤ prk.length ∧
        (out.length + h.digestSize - 1) / h.digestSize ≤ 255 ∧
        out' = Spec.hkdfExpand (L.hmac h) h.digestSize prk info out.length) ∧
      (st ≠ .ok → out.length ≤ h.digestSize → out' = out) ∧
      (f = .none → h ≠ .other → h.digestSize ≤ prk.length →
        (out.length + h.digestSize - 1) / h.digestSize ≤ 255 → st = .ok) := by
  have key : ∀ h : HashFn, 0 < h.digestSize → h ≠ .other →
      ∃ st out', (if prk.length < h.digestSize then (.ok (.invalidArgument, out) : Exec (StatusCode × Bytes))
        else if (out.length + h.digestSize - 1) / h.digestSize > 255 then .ok (.internal, out)
        else if f.ctxNew then .ok (.internal, out)
        else derivation L h f ((out.length + h.digestSize - 1) / h.digestSize) prk info out) =
          .ok (st, out') ∧ out'.length = out.length ∧
      (st = .ok → h ≠ .other ∧ h.digestSize ≤ prk.length ∧
        (out.length + h.digestSize - 1) / h.digestSize ≤ 255 ∧
        out' = Spec.hkdfExpand (L.hmac h) h.digestSize prk info out.length) ∧
      (st ≠ .ok → out.length ≤ h.digestSize → out' = out) ∧
      (f = .none → h ≠ .other → h.digestSize ≤ prk.length →
        (out.length + h.digestSize - 1) / h.digestSize ≤ 255 → st = .ok) := by
    intro h hd ho
    by_cases h1 : prk.length < h.digestSize
    · rw [if_pos h1]
      exact ⟨_, _, rfl, rfl, (by intro h; cases h), (fun _ _ => rfl), fun _ _ h => by omega⟩
    rw [if_neg h1]
    by_cases h2 : (out.length + h.digestSize - 1) / h.digestSize > 255
    · rw [if_pos h2]
      exact ⟨_, _, rfl, rfl, (by intro h; cases h), (fun _ _ => rfl), fun _ _ _ h => by omega⟩
    rw [if_neg h2]
    by_cases h3 : f.ctxNew = true
    · rw [if_pos h3]
      exact ⟨_, _, rfl, rfl, (by intro h; cases h), (fun _ _ => rfl),
        fun h => by subst h; cases h3⟩
    rw [if_neg h3]
    unfold derivation
    by_cases h4 : f.init = true
    · rw [if_pos h4]
      exact ⟨_, _, rfl, rfl, (by intro h; cases h), (fun _ _ => rfl),
        fun h => by subst h; cases h4⟩
    rw [if_neg h4]
    obtain ⟨st, out', g1, g2, g3, g4, g5, g6⟩ := loop_spec L h f prk info
      ((out.length + h.digestSize - 1) / h.digestSize) 0 [] [] out (fun h => absurd rfl h)
    simp only [List.nil_append, List.length_nil] at g1 g2 g4 g5
    refine ⟨st, out', g1, g2, ?_, ?_, ?_⟩
    · intro hs
      refine ⟨ho, by omega, by omega, ?_⟩
      rw [g4 hs, hkdfExpand_eq, tcat_length]
      have := blocks_mul h.digestSize out.length hd
      rw [List.drop_eq_nil_of_le this]; simp
    · intro hs hle
      apply g5 hs
      by_cases h0 : out.length = 0
      · rw [h0]; simp [Nat.div_eq_of_lt (show h.digestSize - 1 < h.digestSize by omega)]
      · have : (out.length + h.digestSize - 1) / h.digestSize < 2 := by
          rw [Nat.div_lt_iff_lt_mul hd]; omega
        omega
    · intro hf _ _ _
      exact g6 (by subst hf; intro n; rfl)
  cases h with
  | other => exact ⟨_, _, rfl, rfl, (by intro h; cases h), (fun _ _ => rfl),
      fun _ h => absurd rfl h⟩
  | sha256 => exact key .sha256 (by decide) (by decide)
  | sha384 => exact key .sha384 (by decide) (by decide)

theorem loop_code {L : Lib} {h : HashFn} {f : HkdfFault} {prk info : Bytes} {m i : Nat}
    {buffer : Bytes} {done : Nat} {out : Bytes} {st out'}
    (hl : loop L h f prk info m i buffer done out = .ok (st, out')) :
    (st = .internal ∧ ∃ j, i ≤ j ∧ j < i + m ∧ f.step j = true) ∨
    (st = .ok ∧ ∀ j, i ≤ j → j < i + m → f.step j = false) := by
  induction m generalizing i buffer done out with
  | zero => rw [loop] at hl; cases hl; exact .inr ⟨rfl, fun j h1 h2 => by omega⟩
  | succ m ih =>
    rw [loop] at hl
    by_cases hs : f.step i = true
    · rw [if_pos hs] at hl; cases hl; exact .inl ⟨rfl, i, by omega, by omega, hs⟩
    rw [if_neg hs] at hl
    cases ht : todoLen done h.digestSize out.length with
    | error u => simp only [ht, bind, Except.bind] at hl; cases hl
    | ok todo =>
      simp only [ht, bind, Except.bind] at hl
      split at hl
      · cases hl
      rcases ih hl with ⟨h1, j, h2, h3, h4⟩ | ⟨h1, h2⟩
      · exact .inl ⟨h1, j, by omega, by omega, h4⟩
      · refine .inr ⟨h1, fun j h3 h4 => ?_⟩
        by_cases hj : j = i
        · subst hj; simpa using hs
        · exact h2 j (by omega) (by omega)

end S2A.Hkdf
