import Verif.Model.Base
namespace S2A

@[simp] theorem flat_nil : flat [] = [] := rfl
@[simp] theorem flat_cons (v : Iovec) (vs) : flat (v :: vs) = v.bytes ++ flat vs := by
  simp [flat]
@[simp] theorem flat_append (a b : List Iovec) : flat (a ++ b) = flat a ++ flat b := by
  simp [flat]
@[simp] theorem totalLen_nil : totalLen [] = 0 := rfl
@[simp] theorem totalLen_cons (v : Iovec) (vs) : totalLen (v :: vs) = v.len + totalLen vs := by
  simp [totalLen]
@[simp] theorem totalLen_append (a b : List Iovec) :
    totalLen (a ++ b) = totalLen a + totalLen b := by
  simp [totalLen, List.sum_append]

theorem AllWF.head {v : Iovec} {vs} (h : AllWF (v :: vs)) : v.WF := h v (by simp)
theorem AllWF.tail {v : Iovec} {vs} (h : AllWF (v :: vs)) : AllWF vs :=
  fun w hw => h w (by simp [hw])
theorem AllWF.cons {v : Iovec} {vs} (h : v.WF) (h' : AllWF vs) : AllWF (v :: vs) := by
  intro w hw
  rcases List.mem_cons.1 hw with rfl | hw
  · exact h
  · exact h' w hw
theorem AllWF.append {a b : List Iovec} (h : AllWF a) (h' : AllWF b) : AllWF (a ++ b) := by
  intro w hw
  rcases List.mem_append.1 hw with hw | hw
  · exact h w hw
  · exact h' w hw
theorem allWF_nil : AllWF [] := by simp [AllWF]

theorem Iovec.WF.len_eq {v : Iovec} (h : v.WF) : v.len = v.bytes.length := by
  cases v with
  | null n => simpa [Iovec.WF, Iovec.len, Iovec.bytes] using h
  | buf d => rfl

theorem AllWF.totalLen_eq {vs : List Iovec} (h : AllWF vs) : totalLen vs = (flat vs).length := by
  induction vs with
  | nil => rfl
  | cons v vs ih => simp [ih h.tail, h.head.len_eq]

theorem Iovec.len_mem_le {v : Iovec} {vs : List Iovec} (h : v ∈ vs) : v.len ≤ totalLen vs := by
  induction vs with
  | nil => cases h
  | cons w vs ih =>
    simp only [totalLen_cons]
    rcases List.mem_cons.1 h with rfl | h
    · omega
    · have := ih h; omega

theorem Iovec.setBytes_bytes {v : Iovec} (h : v.WF) : v.setBytes v.bytes = v := by
  cases v <;> simp [Iovec.setBytes, Iovec.bytes]

theorem Iovec.bytes_setBytes {v : Iovec} {b : Bytes} (h : v.WF) (hb : b.length = v.len) :
    (v.setBytes b).bytes = b := by
  cases v with
  | null n =>
    simp only [Iovec.WF] at h
    subst h
    simp [Iovec.len] at hb
    simp [Iovec.setBytes, Iovec.bytes, hb]
  | buf d => simp [Iovec.setBytes, Iovec.bytes]

theorem writeAt_append (a w c : Bytes) (h : w.length ≤ c.length) :
    writeAt (a ++ c) a.length w = .ok (a ++ w ++ c.drop w.length) := by
  unfold writeAt
  rw [if_pos (by simp; omega)]
  simp [List.drop_append]

theorem writeAt_zero (w c : Bytes) (h : w.length ≤ c.length) :
    writeAt c 0 w = .ok (w ++ c.drop w.length) := by
  have := writeAt_append [] w c h
  simpa using this

theorem subSize_ok {a b : Nat} (h : b ≤ a) : subSize a b = .ok (a - b) := by
  simp [subSize, h]

@[simp] theorem zeros_length (n : Nat) : (zeros n).length = n := by simp [zeros]

@[simp] theorem exec_bind_ok {α β : Type _} (a : α) (f : α → Exec β) :
    ((Except.ok a : Exec α) >>= f) = f a := rfl
@[simp] theorem exec_bind_error {α β : Type _} (e : UB) (f : α → Exec β) :
    ((Except.error e : Exec α) >>= f) = .error e := rfl
@[simp] theorem exec_pure {α : Type _} (a : α) : (pure a : Exec α) = .ok a := rfl

end S2A
