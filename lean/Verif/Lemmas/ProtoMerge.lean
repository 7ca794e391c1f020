import Verif.Lemmas.WireAppend
import Verif.Lemmas.Proto
/-
A submessage that occurs several times is merged.
-/
namespace S2A

namespace Wire

/-- The fields of a message written after another one are read after its fields. -/
theorem decode_append_encode {bs : Bytes} {fs gs : List Field} (h : decode bs = some fs)
    (hg : decode (encode gs) = some gs) : decode (bs ++ encode gs) = some (fs ++ gs) :=
  readFields_append h hg _ (by simp)

theorem mapM_parse_append {α : Type} (parse : Bytes → Option α) (ps : List Bytes) (b : Bytes)
    {xs : List α} {y : α} (h : ps.mapM parse = some xs) (hb : parse b = some y) :
    (ps ++ [b]).mapM parse = some (xs ++ [y]) := by
  rw [List.mapM_append, h]
  simp [hb]

/-- One more occurrence of a submessage that occurred before. -/
theorem getSub_again {α : Type} (parse : Bytes → Option α) (i : Nat) (fs : List Field)
    (b : Bytes) {x y z : α} (h : getSub parse i fs = some (some x)) (hb : parse b = some y)
    (hm : ∀ q, parse q = some x → parse (q ++ b) = some z) :
    getSub parse i (fs ++ [(i, .len b)]) = some (some z) := by
  have hl : lens i (fs ++ [(i, .len b)]) = lens i fs ++ [b] := by
    simp [lens, Val.asLen]
  unfold getSub at h ⊢
  rw [hl]
  cases hp : lens i fs with
  | nil => rw [hp] at h; cases h
  | cons p ps =>
    rw [hp] at h
    simp only [Option.bind_eq_bind, Option.bind_eq_some_iff] at h
    obtain ⟨xs, h1, m, h2, h3⟩ := h
    cases h3
    have e := mapM_parse_append parse (p :: ps) b h1 hb
    simp only [List.cons_append] at e ⊢
    rw [e]
    simp only [Option.bind_eq_bind, Option.bind_some]
    have := hm _ h2
    simp only [List.flatten_cons, List.flatten_append, List.flatten_nil, List.append_nil,
      List.append_assoc] at this ⊢
    rw [this]
    rfl

end Wire

namespace Proto
open Wire

theorem SessionStatus.parse_append (utf8 : Bytes → Bool) (q : Bytes) (s m : SessionStatus)
    (hq : parse utf8 q = some s)
    (hl : m.serialize.length < 2 ^ 64) (h1 : m.code < 2 ^ 32) (hp : utf8 m.details = true) :
    parse utf8 (q ++ m.serialize) =
      some ⟨if m.code = 0 then s.code else m.code,
        if m.details = [] then s.details else m.details⟩ := by
  have hd : decode m.serialize = some m.fields := by
    refine decode_encode_short _ (ok_append ?_ ?_) hl
    · exact ok_putNum (by decide) (by decide) (by omega)
    · exact ok_putBytes (by decide) (by decide)
  have e1 : varints 1 m.fields = if m.code ≠ 0 then [m.code] else [] := by
    simp [fields, varints_putNum]
  have e2 : lens 2 m.fields = if m.details ≠ [] then [m.details] else [] := by
    simp [fields, lens_putBytes]
  unfold parse at hq ⊢
  cases hf : decode q with
  | none => rw [hf] at hq; cases hq
  | some fs =>
    rw [hf] at hq
    have := decode_append_encode hf (gs := m.fields) hd
    rw [show q ++ m.serialize = q ++ encode m.fields from rfl, this]
    simp only [Option.bind_eq_bind, Option.bind_some] at hq ⊢
    split at hq
    · cases hq
    · next hc =>
      cases hq
      have hc' : checkStrings utf8 [2] (fs ++ m.fields) = true := by
        simp only [Bool.not_eq_true, Bool.not_eq_false', checkStrings, List.all_cons,
          List.all_nil, Bool.and_true] at hc
        simp only [checkStrings, List.all_cons, List.all_nil, Bool.and_true, lens_append,
          List.all_append, e2]
        rw [hc]
        by_cases hz : m.details = []
        · simp [hz]
        · simp [hz, hp]
      rw [if_neg (by simp [hc'])]
      congr 2
      · simp only [getU32, getU64, varints_append, e1]
        by_cases hz : m.code = 0
        · simp [hz]
        · simp [hz]
          omega
      · simp only [getBytes, lens_append, e2]
        by_cases hz : m.details = []
        · simp [hz]
        · simp [hz]

end Proto
end S2A
