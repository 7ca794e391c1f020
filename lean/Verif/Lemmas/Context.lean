import Verif.Spec.Options
import Verif.Lemmas.Proto
import Verif.Model.TicketSender
import Verif.Model.TokenManager
/- Conversions, contexts and ticket requests. -/
namespace S2A
open Proto Util

theorem cstr_eq_cut (s : Bytes) : cstr s = Spec.cut s := rfl

theorem cut_noNul {s : Bytes} (h : Spec.NoNul s) : Spec.cut s = s := by
  unfold Spec.NoNul at h
  unfold Spec.cut
  induction s with
  | nil => rfl
  | cons b s ih =>
    simp only [List.mem_cons, not_or] at h
    rw [List.takeWhile_cons_of_pos (by simpa using Ne.symm h.1), ih h.2]

theorem noNul_cut (s : Bytes) : Spec.NoNul (Spec.cut s) := by
  unfold Spec.NoNul Spec.cut
  induction s with
  | nil => simp
  | cons b s ih =>
    by_cases hb : b = 0
    · simp [List.takeWhile_cons, hb]
    · simp [List.takeWhile_cons, hb, Ne.symm hb]
      simpa using ih

theorem cut_eq_self {s : Bytes} (h : Spec.cut s = s) : Spec.NoNul s := by
  rw [← h]; exact noNul_cut s

/-- The identity with its string cut off at the first NUL. -/
def Identity.cut (i : Identity) : Identity := ⟨i.type, Spec.cut i.value⟩

theorem Identity.cut_noNul {i : Identity} (h : Spec.NoNul i.value) : i.cut = i := by
  unfold Identity.cut
  rw [S2A.cut_noNul h]

theorem identityToProto_eq (i : Identity) : identityToProto i = Spec.wireIdentity i.cut := by
  obtain ⟨t, v⟩ := i
  cases t <;> rfl

theorem identityFromProto_wire {i : Identity} (h : Spec.Made i) :
    identityFromProto (Spec.wireIdentity i) = i := by
  rcases h with rfl | ⟨s, rfl | rfl | rfl⟩ <;> rfl

theorem Made.cut {i : Identity} (h : Spec.Made i) : Spec.Made i.cut := by
  rcases h with rfl | ⟨s, rfl | rfl | rfl⟩
  · left; rfl
  · right; exact ⟨Spec.cut s, .inl rfl⟩
  · right; exact ⟨Spec.cut s, .inr (.inl rfl)⟩
  · right; exact ⟨Spec.cut s, .inr (.inr rfl)⟩

theorem identityFromProto_toProto {i : Identity} (h : Spec.Made i) :
    identityFromProto (identityToProto i) = i.cut := by
  rw [identityToProto_eq, identityFromProto_wire (Made.cut h)]

/-- The strings of an identity message are those of the identity. -/
theorem wireIdentity_strings {i : Identity} {p : PIdentity} (h : Spec.wireIdentity i = some p) :
    ∀ s ∈ p.strings, s = i.value := by
  obtain ⟨t, v⟩ := i
  cases t <;> simp [Spec.wireIdentity] at h <;> subst h <;> simp [PIdentity.strings]

/-- A value that may be missing, as a result. -/
def orFail {α : Type} : Option α → Except StatusCode α
  | some a => .ok a
  | none => .error .failedPrecondition

theorem tlsVersionToProto_eq (v : TlsVersion) :
    tlsVersionToProto v = orFail (Spec.wireTlsVersion v) := by
  cases v <;> rfl

theorem ciphersuiteToProto_eq (c : Ciphersuite) :
    ciphersuiteToProto c = orFail (Spec.wireCiphersuite c) := by
  cases c <;> rfl

theorem wireTlsVersion_lt {v : TlsVersion} {n : Nat} (h : Spec.wireTlsVersion v = some n) :
    n < 2 ^ 32 := by
  cases v <;> simp [Spec.wireTlsVersion] at h <;> subst h <;> decide

theorem wireCiphersuite_lt {c : Ciphersuite} {n : Nat} (h : Spec.wireCiphersuite c = some n) :
    n < 2 ^ 32 := by
  cases c <;> simp [Spec.wireCiphersuite] at h <;> subst h <;> decide

theorem tlsVersionFromProto_wire {v : TlsVersion} {n : Nat}
    (h : Spec.wireTlsVersion v = some n) : tlsVersionFromProto n = .ok v := by
  cases v <;> simp [Spec.wireTlsVersion] at h <;> subst h <;> rfl

theorem ciphersuiteFromProto_wire {c : Ciphersuite} {n : Nat}
    (h : Spec.wireCiphersuite c = some n) : ciphersuiteFromProto n = .ok c := by
  cases c <;> simp [Spec.wireCiphersuite] at h <;> subst h <;> rfl

end S2A
