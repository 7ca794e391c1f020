import Verif.Lemmas.Heap
import Verif.Props.Frame
/-
C77: the memory of a connection, with the memory functions of the proxy (`new[]` and `delete[]`).
-/
namespace S2A.Frame
open Spec (Life given ProtectFailed UnprotectFailedPrecondition CallMade lostBy)
open Demo

set_option maxRecDepth 100000

/-! ## C77: memory is released exactly once -/

/-- Over the life of a connection on which no `Protect` fails, for any input, any failures of
the crypto library and whenever the caller releases its buffers: no array is deleted that is not
allocated, and what is allocated in the end is what the caller has not yet released, and what
was `lost`.  Nothing is lost unless an `Unprotect` fails with the status for broken framing.

Missing from the full property: after a `Protect` that fails, see
`C77_failing_protect_deletes_twice`; and the buffers lost by `Unprotect`, see
`C77_lost_counterexample`. -/
theorem C77_released_once_partial (L : Lib) (A : Allocator) (o : Options) (s : State)
    (held : List BufId) (log : List MemEvent) (hist : List CallMade)
    (h : Life L A o s held log hist) (hok : ∀ x ∈ hist, ¬ ProtectFailed x) :
    ∃ (hp lost : Heap), Heap.run [] log = .ok hp ∧ hp.Perm (held ++ lost) ∧
      (lost ≠ [] → ∃ x ∈ hist, UnprotectFailedPrecondition x) := by
  obtain ⟨hp, lost, h1, h2, _, h4, _⟩ := Life.heap h hok
  exact ⟨hp, lost, h1, h2, h4⟩

/-- Without such failures, once the caller has released its buffers nothing is allocated. -/
theorem C77_nothing_left_partial (L : Lib) (A : Allocator) (o : Options) (s : State)
    (log : List MemEvent) (hist : List CallMade) (h : Life L A o s [] log hist)
    (hok : ∀ x ∈ hist, ¬ ProtectFailed x ∧ ¬ UnprotectFailedPrecondition x) :
    Heap.run [] log = .ok [] := by
  obtain ⟨hp, lost, h1, h2, h3⟩ := C77_released_once_partial L A o s [] log hist h
    fun x hx => (hok x hx).1
  have : lost = [] := by
    apply Classical.byContradiction
    intro hl
    obtain ⟨x, hx, hx'⟩ := h3 hl
    exact (hok x hx).2 hx'
  subst this
  simp only [List.append_nil] at h2
  rw [h1, h2.eq_nil]

/-- The first allocating `Protect` that fails, for whatever reason, deletes its array twice. -/
theorem C77_failing_protect_deletes_twice (L : Lib) (A : Allocator) (o : Options) (s s' : State)
    (held : List BufId) (log new : List MemEvent) (hist : List CallMade)
    (h : Life L A o s held log hist) (hok : ∀ x ∈ hist, ¬ ProtectFailed x)
    (f : Nat → EvpFault) (vs : List Iovec) (r : Result)
    (hst : Frame.step L A s (.protect f vs) = .ok (s', .result r))
    (hmem : s'.mem = s.mem ++ new) (hr : r.status ≠ .ok) :
    Heap.run [] (log ++ new) = .error .useAfterFree :=
  Life.fresh h hok hst hmem hr

/-- The whole truth.  Memory is deleted that is not allocated if and only if a `Protect`, in either
form, has failed; until then, what is allocated is what the caller has not yet released and the
lost buffers: one for each good record of the `Unprotect` calls that failed although all records
that they decrypted were good. -/
theorem C77_exact (L : Lib) (A : Allocator) (o : Options) (s : State)
    (held : List BufId) (log : List MemEvent) (hist : List CallMade)
    (h : Life L A o s held log hist) :
    (Heap.run [] log = .error .useAfterFree ↔ ∃ x ∈ hist, ProtectFailed x) ∧
    ((∀ x ∈ hist, ¬ ProtectFailed x) → ∃ (hp lost : Heap), Heap.run [] log = .ok hp ∧
      hp.Perm (held ++ lost) ∧ lost.length = (hist.map lostBy).sum) := by
  have hgood : (∀ x ∈ hist, ¬ ProtectFailed x) → ∃ (hp lost : Heap), Heap.run [] log = .ok hp ∧
      hp.Perm (held ++ lost) ∧ lost.length = (hist.map lostBy).sum := fun hok => by
    obtain ⟨hp, lost, h1, h2, _, _, h5⟩ := Life.heap h hok
    exact ⟨hp, lost, h1, h2, h5⟩
  refine ⟨⟨fun he => ?_, Life.breaks h⟩, hgood⟩
  apply Classical.byContradiction
  intro hno
  obtain ⟨hp, _, h1, _⟩ := hgood fun x hx hp => hno ⟨x, hx, hp⟩
  rw [he] at h1
  cases h1

/-- So, after the caller has released all its buffers, nothing is left allocated if and only if no
`Unprotect` has failed behind good records. -/
theorem C77_leak_iff (L : Lib) (A : Allocator) (o : Options) (s : State)
    (log : List MemEvent) (hist : List CallMade) (h : Life L A o s [] log hist) :
    Heap.run [] log = .ok [] ↔ ∀ x ∈ hist, ¬ ProtectFailed x ∧ lostBy x = 0 := by
  obtain ⟨h1, h2⟩ := C77_exact L A o s [] log hist h
  constructor
  · intro he
    have hok : ∀ x ∈ hist, ¬ ProtectFailed x := fun x hx hp => by
      rw [h1.2 ⟨x, hx, hp⟩] at he
      cases he
    obtain ⟨hp, lost, g1, g2, g3⟩ := h2 hok
    rw [he] at g1
    cases g1
    have : lost = [] := by simpa using g2.symm.eq_nil
    subst this
    refine fun x hx => ⟨hok x hx, ?_⟩
    have hz : (hist.map lostBy).sum = 0 := g3.symm
    exact List.sum_eq_zero_iff_forall_eq_nat.1 hz _ (List.mem_map_of_mem hx)
  · intro hok
    obtain ⟨hp, lost, g1, g2, g3⟩ := h2 fun x hx => (hok x hx).1
    have hz : (hist.map lostBy).sum = 0 :=
      List.sum_eq_zero_iff_forall_eq_nat.2 fun n hn => by
        obtain ⟨x, hx, rfl⟩ := List.mem_map.1 hn
        exact (hok x hx).2
    rw [hz] at g3
    have : lost = [] := List.length_eq_zero_iff.1 g3
    subst this
    have hnil : hp = [] := (show hp.Perm [] from by simpa using g2).eq_nil
    rw [g1, hnil]

/-- That happens on a connection whose first call is a `Protect` during which the library fails
once. -/
theorem C77_counterexample :
    ∃ (L : Lib) (A : Allocator) (o : Options) (s : State) (held : List BufId)
      (log : List MemEvent) (hist : List CallMade), Spec.AllocOk A ∧
      Life L A o s held log hist ∧ Heap.run [] log = .error .useAfterFree := by
  refine ⟨Lib.toy, alloc, leftO, _, _, _, _, alloc_ok,
    .call (.start left_created) (op := .protect (fun _ => { EvpFault.none with final := true })
      [.buf [1, 2]]) rfl rfl, by decide +kernel⟩

/-- And an `Unprotect` of a good record and then 22 zero bytes loses a buffer for good. -/
theorem C77_lost_counterexample :
    ∃ (L : Lib) (A : Allocator) (o : Options) (s : State)
      (log : List MemEvent) (hist : List CallMade), Spec.AllocOk A ∧
      Life L A o s [] log hist ∧ (∀ x ∈ hist, ¬ ProtectFailed x) ∧
      (hist.map lostBy).sum = 1 ∧ Heap.run [] log = .ok [.heap 0] := by
  have l1 := Life.call (Life.start (A := alloc) right_created) (op := .unprotect (fun _ => .none)
      [.buf (record 0 [1, 2, 23] ++ List.replicate 22 0)]) (new := _) rfl rfl
  refine ⟨Lib.toy, alloc, rightO, _, _, _, alloc_ok, l1, ?_, by decide +kernel, by decide +kernel⟩
  intro x hx
  simp only [List.nil_append, List.mem_singleton] at hx
  subst hx
  exact id

/-- A life that meets the hypotheses: a message is sent and its buffer released, two records are
received, the second of them is released, then the first, then a forged record is received. -/
example : ∃ (s : State) (log : List MemEvent) (hist : List CallMade),
    Life Lib.toy alloc rightO s [] log hist ∧
    (∀ x ∈ hist, ¬ ProtectFailed x ∧ ¬ UnprotectFailedPrecondition x) ∧ log.length = 8 := by
  have l0 : Life Lib.toy alloc rightO rightS [] [] [] := .start right_created
  have l1 := Life.call l0 (op := .protect (fun _ => .none) [.buf [7, 8]]) (new := _) rfl rfl
  have l2 := Life.release 24 l1 (id := .heap 0) (by decide +kernel)
  have l3 := Life.call l2 (op := .unprotect (fun _ => .none)
    [.buf (record 0 [1, 2, 23] ++ record 1 [3, 23])]) (new := _) rfl rfl
  have l4 := Life.release 1 l3 (id := .heap 2) (by decide +kernel)
  have l5 := Life.release 2 l4 (id := .heap 1) (by decide +kernel)
  have l6 := Life.call l5 (op := .unprotect (fun _ => .none) [.buf (record 5 [4, 23])])
    (new := _) rfl rfl
  refine ⟨_, _, _, l6, ?_, by decide +kernel⟩
  intro x hx
  simp only [List.nil_append, List.cons_append, List.mem_cons, List.not_mem_nil, or_false] at hx
  rcases hx with rfl | rfl | rfl
  · exact ⟨fun h => h (by decide +kernel), id⟩
  · exact ⟨id, fun h => StatusCode.noConfusion (show _ = StatusCode.failedPrecondition from h)⟩
  · exact ⟨id, fun h => StatusCode.noConfusion (show _ = StatusCode.failedPrecondition from h)⟩

end S2A.Frame
