import Verif.Lemmas.RaceExact
import Verif.Props.Race
/-
C32 and C60: exactly which calls may be made at the same time.
-/
namespace S2A.Race
open Machine
open Spec (clashes asksOverhead)
variable {T : Type} [DecidableEq T]

/-! ### C32 -/

/-- Whatever else the threads do: if one receives a key update and another one asks for the
overhead of records - as every `Protect` does - there is a schedule with a data race, and a
schedule in which the second uses the AEAD object after the first has deleted it. -/
theorem C32_update_breaks (calls : T → List Call) (t u : T) (htu : t ≠ u) (c d : Call)
    (hc : c ∈ calls t) (ha : asksOverhead c = true) (hd : d ∈ calls u) (hu : d.updates = true) :
    (∃ schedule cf, run (.init fun t => thread (calls t)) schedule = .ok cf ∧
      Race cf t (.load .recordOverhead .inbound) u (.install .inbound)) ∧
    ∃ schedule cf, run (.init fun t => thread (calls t)) schedule = .error (cf, t) := by
  obtain ⟨sch, cf, h1, ⟨p1, h2⟩, ⟨p2, h3⟩, h4⟩ := meet htu hc ha hd hu
  constructor
  · exact ⟨sch, cf, h1, htu, by rw [h2]; rfl, by rw [h3]; rfl, .ptr .inbound, false, true,
      by simp [touches], by simp [touches], rfl⟩
  · obtain ⟨c', h5⟩ := stale_use htu h2 h3 h4
    exact ⟨sch ++ [t, u, u, t], c', by rw [run_append h1, h5]⟩

/-- A thread that does not ask for the overhead never gets to the place. -/
theorem never_overhead {cs : List Call} (ha : ∀ c ∈ cs, asksOverhead c = false) (x : Act)
    (hx : x ∈ thread cs) :
    x ≠ .load .recordOverhead .inbound ∧ x ≠ .deref .recordOverhead .inbound .fixed := by
  obtain ⟨c, hc, hx⟩ := List.mem_flatMap.1 hx
  have hc' := ha c hc
  cases c with
  | protectInto rs =>
    simp only [Call.actions, List.cons_append, List.mem_cons, List.mem_append,
      List.mem_flatMap, List.not_mem_nil, or_false] at hx
    rcases hx with rfl | ⟨r, hr, hx⟩ | rfl
    · simp
    · have : r = .tooLong := by
        simp only [asksOverhead, List.any_eq_false, decide_eq_true_eq, ne_eq,
          Decidable.not_not] at hc'
        exact hc' r hr
      subst this
      cases hx
    · simp
  | protect rs => cases hc'
  | unprotect rs => cases hc'
  | unprotectInto r => cases hc'
  | size => cases hc'

/-- So, if one thread `u` makes all calls of `Unprotect`, sharing a frame protector is safe if and
only if no key update is received, or no other thread protects anything or asks for sizes. -/
theorem C32_exact (calls : T → List Call) (u : T)
    (h : ∀ t, ∀ c ∈ calls t, c.unprotects = true → t = u) :
    (Safe fun t => thread (calls t)) ↔
      (∀ c ∈ calls u, c.updates = false) ∨ ∀ t, t ≠ u → ∀ c ∈ calls t, asksOverhead c = false := by
  constructor
  · intro hs
    apply Classical.byContradiction
    intro hno
    have hno := not_or.1 hno
    obtain ⟨d, hd⟩ := Classical.not_forall.1 hno.1
    obtain ⟨hd, hup⟩ := Classical.not_imp.1 hd
    obtain ⟨t, ht⟩ := Classical.not_forall.1 hno.2
    obtain ⟨ht, hc⟩ := Classical.not_imp.1 ht
    obtain ⟨c, hc⟩ := Classical.not_forall.1 hc
    obtain ⟨hc, ha⟩ := Classical.not_imp.1 hc
    exact not_safe_of_race (C32_update_breaks calls t u ht c d hc (by simpa using ha) hd
      (by simpa using hup)).1 hs
  · rintro (hu | ha)
    · refine C32_no_update_partial calls (fun t c hc => ?_) (.inl ⟨u, h⟩)
      cases hx : c.updates with
      | false => rfl
      | true =>
        have : c.unprotects = true := by cases c <;> first | rfl | cases hx
        rw [h t c hc this] at hc
        rw [← hx]
        exact hu c hc
    · -- the other threads never get to the place
      have atHead : ∀ (cf : Config frameShape T) (t : T) (x : Act), t ≠ u →
          (∃ pre, thread (calls t) = pre ++ cf.prog t) → (cf.prog t).head? = some x →
          x ≠ .load .recordOverhead .inbound ∧ x ≠ .deref .recordOverhead .inbound .fixed := by
        intro cf t x ht ⟨pre, hp⟩ hx
        refine never_overhead (ha t ht) x ?_
        rw [hp]
        exact List.mem_append_right _ (List.mem_of_mem_head? hx)
      intro schedule
      obtain ⟨h1, h2⟩ := C32_only_record_overhead_partial calls u h schedule
      cases hr : run (.init fun t => thread (calls t)) schedule with
      | error e =>
        obtain ⟨cf, t⟩ := e
        obtain ⟨ht, hx⟩ := h1 cf t hr
        exact absurd rfl (atHead cf t _ ht (run_error_suffix hr t) hx).2
      | ok cf =>
        refine ⟨cf, rfl, fun t a v b hrace => ?_⟩
        have sfx := fun t => run_suffix hr t
        rcases h2 cf t a v b hr hrace with ⟨ht, _, hx, _⟩ | ⟨hv, _, hx, _⟩
        · have := atHead cf t a ht (sfx t) hrace.2.1
          rcases hx with hx | hx
          · exact this.1 hx
          · exact this.2 hx
        · have := atHead cf v b hv (sfx v) hrace.2.2.1
          rcases hx with hx | hx
          · exact this.1 hx
          · exact this.2 hx

/-- Both sides of the equivalence occur. -/
example : Safe fun t => thread (Demo.quiet t) :=
  (C32_exact Demo.quiet true (by decide)).2 (.inl (by decide))

example : ¬ Safe fun t => thread (Demo.calls t) := fun h =>
  absurd ((C32_exact Demo.calls true (by decide)).1 h) (by decide)

/-! ### C60 -/

/-- If no calls clash, there are rules that all calls follow. -/
theorem no_clash_follows (calls : T → List ProxyCall)
    (hno : ∀ t u, t ≠ u → ∀ c ∈ calls t, ∀ d ∈ calls u, clashes c d = false) :
    ∃ R : Rules proxyShape T, (∀ t site p, ¬ R.exempt t site p) ∧
      ∀ t, Follows R t [] .nothing (proxyThread (calls t)) := by
  -- who handles the results, and the contexts
  have owner : ∀ (c : ProxyCall), ∃ o : Option T,
      (∀ u, o = some u → c ∈ calls u) ∧ (o = none → ∀ t, c ∉ calls t) := by
    intro c
    by_cases h : ∃ t, c ∈ calls t
    · obtain ⟨t, ht⟩ := h
      exact ⟨some t, fun u hu => by cases hu; exact ht, fun h => by cases h⟩
    · exact ⟨none, fun u hu => (by cases hu), fun _ t ht => h ⟨t, ht⟩⟩
  obtain ⟨r, hr1, hr2⟩ := owner (.createFrameProtector true)
  obtain ⟨x, hx1, hx2⟩ := owner (.getContext true)
  -- a call that would clash with the owner's is the owner's
  have mine : ∀ (o : Option T) (w d : ProxyCall) (t : T) (held : List Unit),
      (∀ u, o = some u → w ∈ calls u) → d ∈ calls t → clashes w d = true →
      (o = none → () ∈ held) → own o t held := by
    intro o w d t held h1 hd hcl h2
    cases o with
    | none => exact h2 rfl
    | some u =>
      show t = u
      apply Classical.byContradiction
      intro hne
      rw [hno u t (fun e => hne e.symm) w (h1 u rfl) d hd] at hcl
      cases hcl
  refine ⟨shared r x, fun _ _ _ => id, fun t => follows_flatMap fun c hc =>
    sharedCall c ?_ ?_ ?_ ?_⟩
  · intro hst
    refine mine r _ c t _ hr1 hc ?_ fun _ => List.mem_cons_self
    cases c with
    | forPeer o => cases o <;> first | rfl | cases hst
    | _ => cases hst
  · rintro rfl
    exact mine x _ _ t _ hx1 hc rfl fun _ => List.mem_cons_self
  · rintro rfl
    exact mine r _ _ t _ hr1 hc rfl fun h => absurd hc (hr2 h t)
  · rintro rfl
    exact mine x _ _ t _ hx1 hc rfl fun h => absurd hc (hx2 h t)

/-- Sharing a proxy is safe if and only if no two threads make calls that clash: it does not
matter how often, and what else they do.

The outcomes of the calls are given, and the machine does not know that `CreateFrameProtector` and
`GetS2AContext` find the handshake finished only after a response has brought a result.  So the
direction from left to right also covers clashes with the one response that finishes the handshake,
which cannot happen; the schedule of `C60_use_after_free`, with a second result, can. -/
theorem C60_safe_iff (calls : T → List ProxyCall) :
    (Safe fun t => proxyThread (calls t)) ↔
      ∀ t u, t ≠ u → ∀ c ∈ calls t, ∀ d ∈ calls u, clashes c d = false := by
  constructor
  · intro hs t u htu c hc d hd
    cases hx : clashes c d with
    | false => rfl
    | true =>
      obtain ⟨x, y, _, h⟩ := clash_race htu hc hd hx
      exact absurd hs (not_safe_of_race h)
  · intro hno
    obtain ⟨_, hx, hf⟩ := no_clash_follows calls hno
    exact safe_of_follows hx hf

/-- While one thread receives a response with a result, another one that creates a frame protector
uses the result that the first has deleted, in some schedule. -/
theorem C60_result_replaced (calls : T → List ProxyCall) (t u : T) (htu : t ≠ u) (d : ProxyCall)
    (hc : .createFrameProtector true ∈ calls t) (hd : d ∈ calls u) (hs : d.stores = true) :
    ∃ schedule cf, run (.init fun t => proxyThread (calls t)) schedule = .error (cf, t) := by
  obtain ⟨sch, cf, h1, ⟨p1, h2⟩, ⟨p2, h3⟩, h4⟩ := replaced htu hc hd hs
  obtain ⟨c', h5⟩ := stale_use htu h2 h3 h4
  exact ⟨sch ++ [t, u, u, t], c', by rw [run_append h1, h5]⟩

/-- One thread creates the frame protector, another takes the context, and the others keep sending
messages: safe. -/
def Demo.split : Nat → List ProxyCall
  | 0 => [.createFrameProtector true]
  | 1 => [.getContext true]
  | _ => [.forS2A, .forPeer .noResult]

example : Safe fun t => proxyThread (Demo.split t) := by
  rw [C60_safe_iff]
  intro t u htu c hc d hd
  match t, u with
  | 0, 0 => exact absurd rfl htu
  | 1, 1 => exact absurd rfl htu
  | 0, 1 => simp only [Demo.split, List.mem_singleton] at hc hd; subst hc hd; rfl
  | 1, 0 => simp only [Demo.split, List.mem_singleton] at hc hd; subst hc hd; rfl
  | 0, n + 2 =>
    simp only [Demo.split, List.mem_cons, List.not_mem_nil, or_false] at hc hd
    subst hc; rcases hd with rfl | rfl <;> rfl
  | 1, n + 2 =>
    simp only [Demo.split, List.mem_cons, List.not_mem_nil, or_false] at hc hd
    subst hc; rcases hd with rfl | rfl <;> rfl
  | n + 2, _ =>
    simp only [Demo.split, List.mem_cons, List.not_mem_nil, or_false] at hc
    rcases hc with rfl | rfl <;> rfl

example : ¬ Safe fun t => proxyThread (Demo.late t) := fun h =>
  absurd ((C60_safe_iff Demo.late).1 h false true (by decide) (.createFrameProtector true)
    (by decide) (.forPeer .complete) (by decide)) (by decide)

end S2A.Race
