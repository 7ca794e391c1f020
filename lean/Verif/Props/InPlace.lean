import Verif.Lemmas.InPlaceOverwrite
import Verif.Props.Frame
/-
C104: input and output in the same memory.

`protectInto` and `unprotectInto` here are the functions of Model/InPlace.lean: `m` is the memory
before the call, `vs` the buffers of the input and `{oo, on}` the buffer for the output.
-/
namespace S2A.InPlace
open Spec (replaced Inside Apart Placed PlacedRecords sealedAt copied inputBytes)
open Frame (Created Reach)
open Frame.Demo

set_option maxRecDepth 100000

/-! ### Helpers -/

theorem copied_view (m m' : Bytes) (v : Ptr) : (copied m v).view m' = v.view m := by
  cases v <;> rfl

theorem copied_inside (m m' : Bytes) (v : Ptr) : Inside m' (copied m v) := by
  cases v <;> trivial

theorem placed_copied (m : Bytes) (lead skip oo : Nat) (vs : List Ptr) :
    ∀ pos, Placed lead skip oo pos (vs.map (copied m)) := by
  induction vs with
  | nil => intro _; trivial
  | cons v vs ih => intro pos; exact ⟨by cases v <;> trivial, ih _⟩

theorem placedRecords_copied (m : Bytes) (oo : Nat) (vs : List Ptr) :
    ∀ pos, PlacedRecords oo pos (vs.map (copied m)) := by
  induction vs with
  | nil => intro _; trivial
  | cons v vs ih => intro pos; exact ⟨by cases v <;> trivial, ih _⟩

theorem views_copied (m : Bytes) (vs : List Ptr) :
    (vs.map (copied m)).map (·.view m) = vs.map (·.view m) := by
  rw [List.map_map]
  exact List.map_congr_left fun v _ => copied_view m m v

/-! ## C104: a caller may let the output share memory with the input -/

/-- `Unprotect` into a buffer of the caller: if each buffer of the record lies where its own
plaintext goes, or apart from what is written up to there, the call does what it does on copies of
the input. -/
theorem C104_unprotect_partial (L : Lib) (f : Record.Fault) (s : Frame.State) (m : Bytes)
    (vs : List Ptr) (oo on : Nat) (hm : oo + on ≤ m.length) (hi : ∀ v ∈ vs, Inside m v)
    (hp : Placed 5 0 oo 0 vs) :
    unprotectInto L f s m vs oo on = unprotectInto L f s m (vs.map (copied m)) oo on := by
  rw [unprotectInto_same L f s m vs oo on hm hi hp,
    unprotectInto_same L f s m _ oo on hm
      (fun v hv => by obtain ⟨w, _, rfl⟩ := List.mem_map.1 hv; exact copied_inside ..)
      (placed_copied ..), views_copied]

/-- On copies of the input it does what the properties of the frame protector say, and it changes
no memory but its output. -/
theorem C104_unprotect_model (L : Lib) (f : Record.Fault) (s : Frame.State) (m : Bytes)
    (vs : List Ptr) (oo on : Nat) (hm : oo + on ≤ m.length) (hi : ∀ v ∈ vs, Inside m v)
    (hp : Placed 5 0 oo 0 vs) :
    unprotectInto L f s m vs oo on =
      (Frame.unprotectInto L f s (vs.map (·.view m)) (.buf (get m oo on))).map fun x =>
        (replaced m oo x.2.2.2.bytes, x.1, x.2.1, x.2.2.1) :=
  unprotectInto_same L f s m vs oo on hm hi hp

/-- A record in one buffer can be unprotected in place: the output starts where the payload starts. -/
theorem C104_unprotect_in_place (L : Lib) (f : Record.Fault) (s : Frame.State) (m : Bytes)
    (a n on : Nat) (h1 : a + 5 + on ≤ m.length) (h2 : a + n ≤ m.length) :
    unprotectInto L f s m [.mem a n] (a + 5) on =
      unprotectInto L f s m [.stack (get m a n)] (a + 5) on :=
  C104_unprotect_partial L f s m [.mem a n] (a + 5) on h1
    (fun v hv => by rw [List.mem_singleton.1 hv]; exact h2)
    ⟨Or.inr (Or.inl (by omega)), trivial⟩

/-- `Protect` into a buffer of the caller: if each buffer of the input lies where its own
ciphertext goes, or apart from what is written up to there, the call does what it does on copies of
the input. -/
theorem C104_protect_partial (L : Lib) (f : Nat → EvpFault) (s : Frame.State) (m : Bytes)
    (vs : List Ptr) (oo on : Nat) (hm : oo + on ≤ m.length) (hi : ∀ v ∈ vs, Inside m v)
    (hp : PlacedRecords oo 0 vs) :
    protectInto L f s m vs oo on = protectInto L f s m (vs.map (copied m)) oo on := by
  rw [protectInto_same L f s m vs oo on hm hi hp,
    protectInto_same L f s m _ oo on hm
      (fun v hv => by obtain ⟨w, _, rfl⟩ := List.mem_map.1 hv; exact copied_inside ..)
      (placedRecords_copied ..), views_copied]

/-- On copies of the input it does what the properties of the frame protector say, and it changes
no memory but its output. -/
theorem C104_protect_model (L : Lib) (f : Nat → EvpFault) (s : Frame.State) (m : Bytes)
    (vs : List Ptr) (oo on : Nat) (hm : oo + on ≤ m.length) (hi : ∀ v ∈ vs, Inside m v)
    (hp : PlacedRecords oo 0 vs) :
    protectInto L f s m vs oo on =
      (Frame.protectInto L f s .caller (vs.map (·.view m)) (.buf (get m oo on))).map fun x =>
        (replaced m oo x.2.2.bytes, x.1, x.2.1) :=
  protectInto_same L f s m vs oo on hm hi hp

theorem protected_memory {m : Bytes} {oo on : Nat} (hm : oo + on ≤ m.length) {w : Bytes}
    (hw : w.length ≤ on) : replaced m oo (w ++ (get m oo on).drop w.length) = replaced m oo w := by
  apply List.ext_getElem?
  intro i
  have hg : (get m oo on).length = on := get_length hm
  have hl : (w ++ (get m oo on).drop w.length).length = on := by simp [hg]; omega
  rw [replaced_get? (by omega), replaced_get? (by omega), hl]
  by_cases h1 : oo ≤ i ∧ i < oo + on
  · rw [if_pos h1]
    by_cases h2 : i < oo + w.length
    · rw [if_pos ⟨h1.1, h2⟩, List.getElem?_append_left (by omega)]
    · rw [if_neg (by omega), List.getElem?_append_right (by omega), List.getElem?_drop, get_get?,
        if_pos (by omega)]
      congr 1; omega
  · rw [if_neg h1, if_neg (by omega)]

/-- What `Protect` sends when it is allowed to share memory: the records of the bytes that were in
the input before the call.  Nothing behind them is changed. -/
theorem C104_protect_sends (L : Lib) (A : Frame.Allocator) (o : Frame.Options) (su : Spec.Suite)
    (hsu : Spec.suite o.args.ciphersuite = some su) (s : Frame.State) (hr : Reach L A o s)
    (hlive : s.conn.outC.alwaysFail = false) (f : Nat → EvpFault) (m : Bytes) (vs : List Ptr)
    (oo on : Nat) (hm : oo + on ≤ m.length) (hi : ∀ v ∈ vs, Inside m v)
    (hw : AllWF (vs.map (·.view m))) (hp : PlacedRecords oo 0 vs) (m' : Bytes) (s' : Frame.State)
    (h : protectInto L f s m vs oo on = .ok (m', s', .ok)) :
    m' = replaced m oo
      (Spec.messageRecords L (Record.outPos L o.args su s.evs) (inputBytes m vs)).flatten := by
  rw [protectInto_same L f s m vs oo on hm hi hp] at h
  have hc := hr.conn.1
  rcases hc.outAt hsu with hx | hx
  · rw [hlive] at hx; cases hx
  obtain ⟨s1, st, ob', e, e2, _, _, _, e3, _⟩ := Frame.protectInto_call (f := f)
    (vs := vs.map (·.view m)) (id := .caller) (ob := get m oo on) hc
  rw [e] at h
  simp only [Except.map, bytes_buf] at h
  cases h
  obtain ⟨r1, r2⟩ := e3 rfl
  obtain ⟨_, _, r3⟩ := r2 _ hx
  have r3 := r3 hw
  have hlen : (Spec.messageRecords L (Record.outPos L o.args su s.evs)
      (inputBytes m vs)).flatten.length =
      totalLen (vs.map (·.view m)) + 22 * Spec.recordCount (totalLen (vs.map (·.view m))) := by
    have := e2
    rw [r3] at this
    simp only [List.length_append, List.length_drop] at this
    unfold inputBytes
    omega
  rw [get_length hm] at r1
  rw [r3, ← protected_memory hm (w := (Spec.messageRecords L (Record.outPos L o.args su s.evs)
      (inputBytes m vs)).flatten) (by omega), hlen]
  rfl

/-- A message of at most one record can be protected in place: the input is 5 bytes behind the
start of the output. -/
theorem C104_protect_in_place (L : Lib) (f : Nat → EvpFault) (s : Frame.State) (m : Bytes)
    (oo n on : Nat) (hn : n ≤ 16384) (h1 : oo + on ≤ m.length) (h2 : oo + 5 + n ≤ m.length) :
    protectInto L f s m [.mem (oo + 5) n] oo on =
      protectInto L f s m [.stack (get m (oo + 5) n)] oo on :=
  C104_protect_partial L f s m [.mem (oo + 5) n] oo on h1
    (fun v hv => by rw [List.mem_singleton.1 hv]; exact h2)
    ⟨Or.inr (Or.inl ⟨rfl, by omega⟩), trivial⟩

/-- One byte more than a record, and the claim is false: `Protect` over its own input overwrites
the last byte before it reads it.  For every protector there is a byte that is sent in its place,
whatever the byte was, with the same status as if that had been the input. -/
theorem C104_protect_overwritten (L : Lib) (A : Frame.Allocator) (o : Frame.Options) (s : Frame.State)
    (hr : Reach L A o s) (f : Nat → EvpFault) :
    ∃ x : UInt8, ∀ (m : Bytes) (oo on : Nat), oo + on ≤ m.length → 16429 ≤ on →
      protectInto L f s m [.mem (oo + 5) 16385] oo on =
        protectInto L f s m [.stack (get m (oo + 5) 16384 ++ [x])] oo on := by
  obtain ⟨su, hsu⟩ := hr.suite
  refine ⟨23 ^^^ L.ks s.conn.outC.aead.alg s.conn.outC.aead.key
    (Spec.recordNonce s.conn.outC.nonce s.conn.outC.seq.toNat) 16384, fun m oo on h1 h2 => ?_⟩
  rw [protectInto_overwritten L f s m oo on (hr.conn.1.good hsu).2.nonce h1 h2]
  have hs := protectInto_same L f s m [.stack (get m (oo + 5) 16384 ++
    [23 ^^^ L.ks s.conn.outC.aead.alg s.conn.outC.aead.key
      (Spec.recordNonce s.conn.outC.nonce s.conn.outC.seq.toNat) 16384])] oo on h1
    (fun v hv => by rw [List.mem_singleton.1 hv]; trivial) ⟨trivial, trivial⟩
  rw [hs]
  rfl

/-- So a message of 16385 bytes is sent wrong, and the status is OK. -/
theorem C104_protect_not_in_place (L : Lib) (A : Frame.Allocator) (o : Frame.Options)
    (su : Spec.Suite) (hsu : Spec.suite o.args.ciphersuite = some su) (s : Frame.State)
    (hr : Reach L A o s) (hlive : s.conn.outC.alwaysFail = false)
    (hseq : (Record.outPos L o.args su s.evs).seq + 2 ≤ 2 ^ 64) :
    ∃ (pt pt' : Bytes), pt.length = 16385 ∧ pt' ≠ pt ∧ pt'.length = 16385 ∧
      ∀ (m : Bytes) (oo on : Nat), oo + on ≤ m.length → 16429 ≤ on → get m (oo + 5) 16385 = pt →
        ∃ s', protectInto L (fun _ => .none) s m [.mem (oo + 5) 16385] oo on =
          .ok (replaced m oo
            (Spec.messageRecords L (Record.outPos L o.args su s.evs) pt').flatten, s', .ok) := by
  obtain ⟨x, hx⟩ := C104_protect_overwritten L A o s hr (fun _ => .none)
  refine ⟨zeros 16384 ++ [x + 1], zeros 16384 ++ [x], by simp, ?_, by simp, ?_⟩
  · intro h
    have h := List.append_cancel_left h
    simp at h
  intro m oo on h1 h2 hpt
  rw [hx m oo on h1 h2]
  have hg : get m (oo + 5) 16384 = zeros 16384 := by
    have : get m (oo + 5) 16384 = (get m (oo + 5) 16385).take 16384 := by
      simp [get, List.take_take]
    rw [this, hpt, List.take_append_of_le_length (by simp)]
    simp [List.take_of_length_le]
  rw [hg]
  have hi : ∀ v ∈ [Ptr.stack (zeros 16384 ++ [x])], Inside m v :=
    fun v hv => by rw [List.mem_singleton.1 hv]; trivial
  have hp : PlacedRecords oo 0 [Ptr.stack (zeros 16384 ++ [x])] := ⟨trivial, trivial⟩
  have hw : AllWF ([Ptr.stack (zeros 16384 ++ [x])].map (·.view m)) := Frame.wf1 _
  have hc := hr.conn.1
  have hat := (hc.outAt hsu).resolve_left (by rw [hlive]; simp)
  obtain ⟨s1, st, ob', e, e2, _, _, _, _, e4⟩ := Frame.protectInto_call (f := fun _ => .none)
    (vs := [Ptr.stack (zeros 16384 ++ [x])].map (·.view m)) (id := .caller) (ob := get m oo on) hc
  have ht : totalLen ([Ptr.stack (zeros 16384 ++ [x])].map (·.view m)) = 16385 := by
    simp [totalLen, view_stack, Iovec.len]
  have hst := e4 _ hat (fun _ => rfl) hw (by
    rw [ht, get_length h1]
    have : Spec.recordCount 16385 = 2 := by decide
    omega) (by
    rw [ht]
    have : Spec.recordCount 16385 = 2 := by decide
    omega)
  subst hst
  have hrun : protectInto L (fun _ => .none) s m [Ptr.stack (zeros 16384 ++ [x])] oo on =
      .ok (replaced m oo ob', s1, .ok) := by
    rw [protectInto_same L _ s m _ oo on h1 hi hp, e]; rfl
  refine ⟨s1, ?_⟩
  rw [hrun]
  have := C104_protect_sends L A o su hsu s hr hlive _ m _ oo on h1 hi hw hp _ _ hrun
  rw [this]
  simp [inputBytes, view_stack, flat, bytes_buf]

/-- The error of a run that is not defined. -/
def fault {α : Type} (x : Exec α) : Option UB :=
  match x with
  | .ok _ => none
  | .error e => some e

/-- What a call leaves in the memory, and its status. -/
def left {α : Type} (g : α → Bytes × StatusCode) (x : Exec α) : Option (Bytes × StatusCode) :=
  match x with
  | .ok r => some (g r)
  | .error _ => none

/-- `Unprotect` into the start of the record itself is not defined: the ciphertext overlaps its
plaintext in part. -/
theorem C104_unprotect_clash :
    let m := record 0 [1, 2, 3, 4, 5, 6, 7, 8, 23]
    fault (unprotectInto Lib.toy .none rightS m [.mem 0 m.length] 0 9) = some .overlap := by
  decide +kernel

/-- Likewise `Protect` of bytes at the start of the output. -/
theorem C104_protect_clash :
    fault (protectInto Lib.toy (fun _ => .none) leftS (List.replicate 40 7) [.mem 0 10] 0 40) =
      some .overlap := by
  decide +kernel

/-! ### Witnesses -/

/-- A record is unprotected in place. -/
example :
    let m := record 0 [1, 2, 3, 4, 5, 6, 7, 8, 23]
    left (fun r => (r.1, r.2.2.1)) (unprotectInto Lib.toy .none rightS m [.mem 0 m.length] 5 9) =
      some (m.take 5 ++ [1, 2, 3, 4, 5, 6, 7, 8, 23] ++ m.drop 14, .ok) := by
  decide +kernel

/-- The hypotheses of the theorem hold there. -/
example : Placed 5 0 5 0 [.mem 0 30] ∧ (∀ v ∈ [Ptr.mem 0 30], Inside (zeros 30) v) :=
  ⟨⟨Or.inr (Or.inl rfl), trivial⟩, fun v hv => by rw [List.mem_singleton.1 hv]; simp [Inside]⟩

/-- A message is protected in place. -/
example :
    let m : Bytes := zeros 5 ++ [1, 2, 3] ++ zeros 20
    left (fun r => (r.1, r.2.2)) (protectInto Lib.toy (fun _ => .none) leftS m [.mem 5 3] 0 28) =
      some (record 0 [1, 2, 3, 23] ++ zeros 3, .ok) := by
  decide +kernel

/-- The input in two buffers, the first of them in place and the other behind the output. -/
example :
    let m : Bytes := zeros 5 ++ [1, 2] ++ zeros 20 ++ [3]
    left (fun r => (r.1, r.2.2))
        (protectInto Lib.toy (fun _ => .none) leftS m [.mem 5 2, .null 0, .mem 27 1] 0 25) =
      some (record 0 [1, 2, 3, 23] ++ zeros 2 ++ [3], .ok) ∧
    PlacedRecords 0 0 [.mem 5 2, .null 0, .mem 27 1] := by
  refine ⟨by decide +kernel, Or.inr (Or.inl ⟨rfl, by decide⟩), trivial, Or.inr (Or.inr ?_), trivial⟩
  exact Or.inr (by decide)

/-- An input of two records with a gap of 22 bytes between its halves. -/
example : PlacedRecords 100 0 [.mem 105 16384, .mem 16511 16384] :=
  ⟨Or.inr (Or.inl ⟨rfl, by decide⟩), Or.inr (Or.inl ⟨rfl, by decide⟩), trivial⟩

/-- The protector of the example sends a message of 16385 bytes wrong. -/
example : ∃ (pt pt' : Bytes), pt.length = 16385 ∧ pt' ≠ pt ∧ pt'.length = 16385 ∧
      ∀ (m : Bytes) (oo on : Nat), oo + on ≤ m.length → 16429 ≤ on → get m (oo + 5) 16385 = pt →
        ∃ s', protectInto Lib.toy (fun _ => .none) leftS m [.mem (oo + 5) 16385] oo on =
          .ok (replaced m oo (Spec.messageRecords Lib.toy
            (Record.outPos Lib.toy leftO.args Record.Demo.suite leftS.evs) pt').flatten, s', .ok) :=
  C104_protect_not_in_place Lib.toy alloc leftO _ rfl leftS left_reach rfl (by decide)

end S2A.InPlace
