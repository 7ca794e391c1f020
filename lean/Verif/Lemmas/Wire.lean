import Verif.Model.Wire
/- The wire format can be read back. -/
namespace S2A.Wire

theorem varint_ne_nil (n : Nat) : varint n ≠ [] := by
  unfold varint; split <;> simp

theorem readVarint_varint' (k n : Nat) (r : Bytes) (h : n < 128 ^ (k + 1)) :
    readVarint (k + 1) (varint n ++ r) = some (n, r) := by
  induction k generalizing n with
  | zero =>
    unfold varint
    have hn : n < 128 := by simpa using h
    rw [if_pos hn]
    have h1 : UInt8.ofNat n < 128 := by
      rw [UInt8.lt_iff_toNat_lt]; simp; omega
    simp only [List.cons_append, List.nil_append, readVarint, h1, if_true]
    simp; omega
  | succ k ih =>
    unfold varint
    by_cases hn : n < 128
    · rw [if_pos hn]
      have h1 : UInt8.ofNat n < 128 := by
        rw [UInt8.lt_iff_toNat_lt]; simp; omega
      simp only [List.cons_append, List.nil_append, readVarint, h1, if_true]
      simp; omega
    · rw [if_neg hn]
      have h1 : ¬ UInt8.ofNat (n % 128 + 128) < 128 := by
        rw [UInt8.lt_iff_toNat_lt]; simp; omega
      rw [List.cons_append, readVarint, if_neg h1]
      rw [ih (n / 128) (by rw [Nat.pow_succ] at h; omega)]
      simp
      omega

theorem readVarint_varint (n : Nat) (r : Bytes) (h : n < 2 ^ 70) :
    readVarint 10 (varint n ++ r) = some (n, r) :=
  readVarint_varint' 9 n r (by simpa using h)

/-- A field that can be written and read back. -/
def FieldOk : Field → Prop
  | (i, v) => 0 < i ∧ i < 2 ^ 29 ∧
    match v with
    | .varint n => n < 2 ^ 64
    | .fixed64 b => b.length = 8
    | .len b => b.length < 2 ^ 64
    | .fixed32 b => b.length = 4

theorem readBytes_append (b r : Bytes) : readBytes b.length (b ++ r) = some (b, r) := by
  simp [readBytes]

theorem readField_encodeField (f : Field) (r : Bytes) (h : FieldOk f) :
    readField (encodeField f ++ r) = some (f, r) := by
  obtain ⟨i, v⟩ := f
  obtain ⟨h0, h1, h2⟩ := h
  have ht : v.wireType < 8 := by cases v <;> simp [Val.wireType]
  have hd : (8 * i + v.wireType) / 8 = i := by omega
  have hm : (8 * i + v.wireType) % 8 = v.wireType := by omega
  have hv := readVarint_varint (8 * i + v.wireType)
  simp only [encodeField, List.append_assoc]
  unfold readField
  rw [hv _ (by omega)]
  simp only [Option.bind_eq_bind, Option.bind_some, hd, hm]
  rw [if_neg (by omega)]
  cases v with
  | varint n =>
    simp only [Val.wireType] at *
    rw [readVarint_varint n r (by omega)]
    simp only [Option.bind_some]
    rw [Nat.mod_eq_of_lt h2]
  | fixed64 b =>
    simp only [Val.wireType] at *
    rw [← h2, readBytes_append]; rfl
  | len b =>
    simp only [Val.wireType, List.append_assoc] at *
    rw [readVarint_varint b.length _ (by omega)]
    simp only [Option.bind_some]
    rw [readBytes_append]; rfl
  | fixed32 b =>
    simp only [Val.wireType] at *
    rw [← h2, readBytes_append]; rfl

theorem encodeField_ne_nil (f : Field) : encodeField f ≠ [] := by
  obtain ⟨i, v⟩ := f
  simp [encodeField, varint_ne_nil]

theorem readFields_encode (fs : List Field) (fuel : Nat) (h : ∀ f ∈ fs, FieldOk f)
    (hf : fs.length ≤ fuel) : readFields fuel (encode fs) = some fs := by
  induction fs generalizing fuel with
  | nil => cases fuel <;> rfl
  | cons f fs ih =>
    obtain ⟨m, rfl⟩ : ∃ m, fuel = m + 1 := ⟨fuel - 1, by simp at hf; omega⟩
    have hr := readField_encodeField f (encode fs) (h f (by simp))
    have he : encode (f :: fs) = encodeField f ++ encode fs := rfl
    rw [he]
    have hn := encodeField_ne_nil f
    cases hx : encodeField f with
    | nil => exact absurd hx hn
    | cons x xs =>
      rw [hx] at hr
      simp only [List.cons_append] at hr ⊢
      simp only [readFields, hr]
      rw [ih m (fun g hg => h g (by simp [hg])) (by simp at hf; omega)]
      rfl

theorem length_le_encode (fs : List Field) : fs.length ≤ (encode fs).length := by
  induction fs with
  | nil => simp
  | cons f fs ih =>
    have := encodeField_ne_nil f
    have : 0 < (encodeField f).length := List.length_pos_iff.2 this
    simp only [encode, List.flatMap_cons, List.length_append, List.length_cons] at *
    omega

theorem decode_encode (fs : List Field) (h : ∀ f ∈ fs, FieldOk f) :
    decode (encode fs) = some fs :=
  readFields_encode fs _ h (length_le_encode fs)

theorem len_le_encode {fs : List Field} {i : Nat} {b : Bytes} (h : (i, Val.len b) ∈ fs) :
    b.length ≤ (encode fs).length := by
  induction fs with
  | nil => simp at h
  | cons f fs ih =>
    simp only [encode, List.flatMap_cons, List.length_append] at *
    rcases List.mem_cons.1 h with h | h
    · subst h; simp [encodeField]; omega
    · have := ih h; omega

/-- What a field needs besides a short enough payload. -/
def FieldOk' : Field → Prop
  | (i, v) => 0 < i ∧ i < 2 ^ 29 ∧
    match v with
    | .varint n => n < 2 ^ 64
    | .fixed64 b => b.length = 8
    | .len _ => True
    | .fixed32 b => b.length = 4

theorem decode_encode_short (fs : List Field) (h : ∀ f ∈ fs, FieldOk' f)
    (hl : (encode fs).length < 2 ^ 64) : decode (encode fs) = some fs := by
  refine decode_encode fs fun f hf => ?_
  have h1 := h f hf
  obtain ⟨i, v⟩ := f
  cases v with
  | len b =>
    refine ⟨h1.1, h1.2.1, ?_⟩
    have := len_le_encode hf
    show b.length < 2 ^ 64
    omega
  | _ => exact h1

/-! ### Lookups of what was written -/

@[simp] theorem varints_append (i a b) : varints i (a ++ b) = varints i a ++ varints i b := by
  simp [varints]

@[simp] theorem lens_append (i a b) : lens i (a ++ b) = lens i a ++ lens i b := by
  simp [lens]

@[simp] theorem varints_nil (i) : varints i [] = [] := rfl
@[simp] theorem lens_nil (i) : lens i [] = [] := rfl

theorem varints_putNum (i j n) :
    varints i (putNum j n) = if i = j ∧ n ≠ 0 then [n] else [] := by
  by_cases hn : n = 0
  · simp [putNum, hn]
  · by_cases hj : j = i
    · simp [putNum, hn, hj, varints, Val.asVarint]
    · simp [putNum, hn, hj, varints, Val.asVarint, Ne.symm hj]

theorem varints_putBool (i j b) :
    varints i (putBool j b) = if i = j ∧ b then [1] else [] := by
  by_cases hn : b = true
  · by_cases hj : j = i
    · simp [putBool, hn, hj, varints, Val.asVarint]
    · simp [putBool, hn, hj, varints, Val.asVarint, Ne.symm hj]
  · simp [putBool, hn]

@[simp] theorem varints_putBytes (i j b) : varints i (putBytes j b) = [] := by
  cases b <;> simp [putBytes, varints, Val.asVarint]

@[simp] theorem varints_putAll (i j b) : varints i (putAll j b) = [] := by
  induction b with
  | nil => rfl
  | cons x xs ih => simp [putAll, varints, Val.asVarint]

@[simp] theorem varints_putOpt (i j b) : varints i (putOpt j b) = [] := by
  cases b <;> simp [putOpt, varints, Val.asVarint]

@[simp] theorem varints_putPacked (i j b) : varints i (putPacked j b) = [] := by
  cases b <;> simp [putPacked, varints, Val.asVarint]

@[simp] theorem lens_putNum (i j n) : lens i (putNum j n) = [] := by
  by_cases hn : n = 0 <;> simp [putNum, hn, lens, Val.asLen]

@[simp] theorem lens_putBool (i j n) : lens i (putBool j n) = [] := by
  cases n <;> simp [putBool, lens, Val.asLen]

theorem lens_putBytes (i j b) :
    lens i (putBytes j b) = if i = j ∧ b ≠ [] then [b] else [] := by
  by_cases hj : j = i
  · cases b <;> simp [putBytes, hj, lens, Val.asLen]
  · cases b <;> simp [putBytes, hj, lens, Val.asLen, Ne.symm hj]

theorem lens_putAll (i j bs) : lens i (putAll j bs) = if i = j then bs else [] := by
  by_cases hj : j = i
  · induction bs with
    | nil => simp [putAll]
    | cons x xs ih =>
      simp only [putAll, lens, hj, if_true, List.map_cons] at ih ⊢
      rw [List.filterMap_cons_some (b := x) (by simp [Val.asLen]), ih]
  · induction bs with
    | nil => simp [putAll]
    | cons x xs ih =>
      simp only [putAll, lens, Ne.symm hj, if_false, List.map_cons] at ih ⊢
      simp [hj]

theorem lens_putOpt (i j b) : lens i (putOpt j b) = if i = j then b.toList else [] := by
  by_cases hj : j = i
  · cases b <;> simp [putOpt, hj, lens, Val.asLen]
  · cases b <;> simp [putOpt, hj, lens, Val.asLen, Ne.symm hj]

theorem lens_putPacked (i j ns) :
    lens i (putPacked j ns) = if i = j ∧ ns ≠ [] then [ns.flatMap varint] else [] := by
  by_cases hj : j = i
  · cases ns <;> simp [putPacked, hj, lens, Val.asLen]
  · cases ns <;> simp [putPacked, hj, lens, Val.asLen, Ne.symm hj]

/-! ### Validity of what was written -/

theorem ok_putNum {i n : Nat} (h0 : 0 < i) (h1 : i < 2 ^ 29) (hn : n < 2 ^ 64) :
    ∀ f ∈ putNum i n, FieldOk' f := by
  intro f hf
  by_cases h : n = 0
  · simp [putNum, h] at hf
  · simp only [putNum, h, if_false, List.mem_singleton] at hf; subst hf; exact ⟨h0, h1, hn⟩

theorem ok_putBool {i : Nat} {b : Bool} (h0 : 0 < i) (h1 : i < 2 ^ 29) :
    ∀ f ∈ putBool i b, FieldOk' f := by
  intro f hf
  cases b
  · simp [putBool] at hf
  · simp only [putBool, if_true, List.mem_singleton] at hf; subst hf
    exact ⟨h0, h1, by show 1 < 2 ^ 64; decide⟩

theorem ok_putBytes {i : Nat} {b : Bytes} (h0 : 0 < i) (h1 : i < 2 ^ 29) :
    ∀ f ∈ putBytes i b, FieldOk' f := by
  intro f hf
  cases b with
  | nil => simp [putBytes] at hf
  | cons x xs => simp [putBytes] at hf; subst hf; exact ⟨h0, h1, trivial⟩

theorem ok_putAll {i : Nat} {b : List Bytes} (h0 : 0 < i) (h1 : i < 2 ^ 29) :
    ∀ f ∈ putAll i b, FieldOk' f := by
  intro f hf
  simp only [putAll, List.mem_map] at hf
  obtain ⟨x, _, rfl⟩ := hf
  exact ⟨h0, h1, trivial⟩

theorem ok_putOpt {i : Nat} {b : Option Bytes} (h0 : 0 < i) (h1 : i < 2 ^ 29) :
    ∀ f ∈ putOpt i b, FieldOk' f := by
  intro f hf
  cases b with
  | none => simp [putOpt] at hf
  | some x => simp [putOpt] at hf; subst hf; exact ⟨h0, h1, trivial⟩

theorem ok_putPacked {i : Nat} {b : List Nat} (h0 : 0 < i) (h1 : i < 2 ^ 29) :
    ∀ f ∈ putPacked i b, FieldOk' f := by
  intro f hf
  cases b with
  | nil => simp [putPacked] at hf
  | cons x xs => simp [putPacked] at hf; subst hf; exact ⟨h0, h1, trivial⟩

theorem ok_append {a b : List Field} (ha : ∀ f ∈ a, FieldOk' f) (hb : ∀ f ∈ b, FieldOk' f) :
    ∀ f ∈ a ++ b, FieldOk' f := by
  intro f hf
  rcases List.mem_append.1 hf with h | h
  · exact ha f h
  · exact hb f h

/-! ### Packed fields -/

theorem unpack_flatMap (ns : List Nat) (fuel : Nat) (h : ∀ n ∈ ns, n < 2 ^ 64)
    (hf : ns.length ≤ fuel) : unpack fuel (ns.flatMap varint) = some ns := by
  induction ns generalizing fuel with
  | nil => cases fuel <;> rfl
  | cons n ns ih =>
    obtain ⟨m, rfl⟩ : ∃ m, fuel = m + 1 := ⟨fuel - 1, by simp at hf; omega⟩
    have hn : n < 2 ^ 64 := h n (by simp)
    have hr := readVarint_varint n (ns.flatMap varint) (by omega)
    simp only [List.flatMap_cons]
    cases hx : varint n with
    | nil => exact absurd hx (varint_ne_nil n)
    | cons x xs =>
      rw [hx] at hr
      simp only [List.cons_append] at hr ⊢
      simp only [unpack, hr]
      rw [ih m (fun g hg => h g (by simp [hg])) (by simp at hf; omega), Nat.mod_eq_of_lt hn]
      rfl

theorem length_le_flatMap (ns : List Nat) : ns.length ≤ (ns.flatMap varint).length := by
  induction ns with
  | nil => simp
  | cons n ns ih =>
    have : 0 < (varint n).length := List.length_pos_iff.2 (varint_ne_nil n)
    simp only [List.flatMap_cons, List.length_append, List.length_cons]
    omega

theorem mapM_elems_other {i : Nat} (fs : List Field) (h : ∀ f ∈ fs, f.1 ≠ i) :
    fs.mapM (elems i) = some (List.replicate fs.length []) := by
  induction fs with
  | nil => rfl
  | cons f fs ih =>
    have h1 : elems i f = some [] := by
      obtain ⟨j, v⟩ := f
      have : j ≠ i := h (j, v) (by simp)
      simp [elems, this]
    simp [List.mapM_cons, h1, ih (fun g hg => h g (by simp [hg])), List.replicate_succ]

theorem flatten_replicate_nil {α} (n : Nat) :
    (List.replicate n ([] : List α)).flatten = [] := by
  induction n with
  | zero => rfl
  | succ n ih => simp [List.replicate_succ]

/-- The numbers of the fields. -/
theorem getRepeated_packed {i : Nat} (a b : List Field) (ns : List Nat)
    (ha : ∀ f ∈ a, f.1 ≠ i) (hb : ∀ f ∈ b, f.1 ≠ i) (hn : ∀ n ∈ ns, n < 2 ^ 32) :
    getRepeated i (a ++ putPacked i ns ++ b) = some ns := by
  have hn' : ∀ n ∈ ns, n < 2 ^ 64 := fun n h => Nat.lt_of_lt_of_le (hn n h) (by decide)
  have hmid : (putPacked i ns).mapM (elems i) = some (if ns.isEmpty then [] else [ns]) := by
    cases ns with
    | nil => rfl
    | cons x xs =>
      simp only [putPacked, List.isEmpty_cons, Bool.false_eq_true, if_false]
      simp only [List.mapM_cons, List.mapM_nil, elems, if_true]
      rw [unpack_flatMap (x :: xs) _ hn' (length_le_flatMap _)]
      rfl
  have hmap : ∀ l : List Nat, (∀ n ∈ l, n < 2 ^ 32) → l.map (· % 2 ^ 32) = l := by
    intro l hl
    induction l with
    | nil => rfl
    | cons x xs ih =>
      simp only [List.map_cons]
      rw [ih (fun n h => hl n (by simp [h])), Nat.mod_eq_of_lt (hl x (by simp))]
  unfold getRepeated
  rw [List.mapM_append, List.mapM_append, mapM_elems_other a ha, mapM_elems_other b hb, hmid]
  simp only [Option.bind_eq_bind, Option.pure_def, Option.bind_some, List.flatten_append,
    flatten_replicate_nil, List.nil_append, List.append_nil]
  cases ns with
  | nil => rfl
  | cons x xs =>
    simp only [List.isEmpty_cons, Bool.false_eq_true, if_false, List.flatten_cons,
      List.flatten_nil, List.append_nil]
    rw [hmap _ hn]

/-! ### Submessages -/

theorem getSub_none {α} (parse : Bytes → Option α) (i fs) (h : lens i fs = []) :
    getSub parse i fs = some none := by simp [getSub, h]

theorem getSub_one {α} (parse : Bytes → Option α) (i fs b m) (h : lens i fs = [b])
    (hp : parse b = some m) : getSub parse i fs = some (some m) := by
  simp [getSub, h, hp]

theorem getSub_opt {α} (parse : Bytes → Option α) (ser : α → Bytes) (i fs) (o : Option α)
    (h : lens i fs = (o.map ser).toList) (hp : ∀ m, o = some m → parse (ser m) = some m) :
    getSub parse i fs = some o := by
  cases o with
  | none => exact getSub_none _ _ _ h
  | some m => exact getSub_one _ _ _ _ _ h (hp m rfl)

theorem mapM_ser {α} (parse : Bytes → Option α) (ser : α → Bytes) (l : List α)
    (hp : ∀ m ∈ l, parse (ser m) = some m) : (l.map ser).mapM parse = some l := by
  induction l with
  | nil => rfl
  | cons x xs ih =>
    simp [List.mapM_cons, hp x (by simp), ih (fun m hm => hp m (by simp [hm]))]

end S2A.Wire
