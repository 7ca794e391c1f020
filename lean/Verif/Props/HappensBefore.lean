import Verif.Props.RaceExact
/-
C121: data races as the C++ standard defines them.
-/
namespace S2A.Race
open Machine
open Spec (clashes asksOverhead)
variable {T : Type} [DecidableEq T]

/-- C121 for frame protectors, in part.  Any number of threads call `Protect`, `Unprotect` and the
size functions, and one of them makes all calls of `Unprotect` - or all use the `Unprotect` that
allocates.  As long as no key update is received, of any two accesses that conflict the earlier
happens before the later.  What is missing: key updates, with which the claim is false
(`C121_frame_protector_iff`), and `Unprotect` into given buffers by several threads, with which it is
false too (`C121_two_unprotect_counterexample`). -/
theorem C121_no_update_partial (calls : T → List Call)
    (hu : ∀ t, ∀ c ∈ calls t, c.updates = false)
    (h : (∃ u, ∀ t, ∀ c ∈ calls t, c.unprotects = true → t = u) ∨
      (∀ t r, .unprotectInto r ∉ calls t)) :
    DataRaceFree fun t => thread (calls t) :=
  have ⟨_, hx, hf⟩ := no_update_follows calls hu h
  drf_of_follows hx hf

/-- Two threads protect and unprotect without key updates. -/
example : DataRaceFree fun t => thread (Demo.quiet t) :=
  C121_no_update_partial _ (by decide) (.inl ⟨true, by decide⟩)

/-- Any number of threads. -/
example : DataRaceFree fun t => thread (Demo.many t) :=
  C121_no_update_partial _ (fun t c hc => by
    simp only [Demo.many, List.mem_cons, List.not_mem_nil, or_false] at hc
    rcases hc with rfl | rfl <;> rfl) (.inr fun t r hc => by
    simp [Demo.many] at hc)

/-- The next action of a thread in a schedule is one of its program. -/
theorem action_mem {S : Shape} {prog : T → List (Action S)} {R : Rules S T}
    (h : ∀ t, Follows R t [] .nothing (prog t)) {schedule : List T} {i : Nat} {e : Made S T}
    (he : (trace (.init prog) schedule)[i]? = some e) {a : Action S} (ha : e.action = some a) :
    a ∈ prog e.thread := by
  obtain ⟨_, _, us, hr⟩ := trace_drop (Inv.init h) he
  obtain ⟨pre, hp⟩ := run_suffix hr e.thread
  have hp : prog e.thread = pre ++ e.before.prog e.thread := hp
  rw [hp]
  exact List.mem_append_right _ (List.mem_of_mem_head? ha)

/-- One thread `u` unprotects, and may receive key updates: the only accesses that conflict and are
not ordered are those of `RecordOverhead` in another thread, with what `u` does. -/
theorem C121_only_record_overhead_partial (calls : T → List Call) (u : T)
    (h : ∀ t, ∀ c ∈ calls t, c.unprotects = true → t = u) (schedule : List T) (i j : Nat)
    (e f : Made frameShape T) (hij : i < j)
    (he : (trace (.init fun t => thread (calls t)) schedule)[i]? = some e)
    (hf : (trace (.init fun t => thread (calls t)) schedule)[j]? = some f) (hc : Conflict e f) :
    HappensBefore (trace (.init fun t => thread (calls t)) schedule) i j ∨
    (∃ x ∈ [e, f], x.thread ≠ u ∧ (x.action = some (.load .recordOverhead .inbound) ∨
      x.action = some (.deref .recordOverhead .inbound .fixed))) := by
  rcases ordered_or_exempt (updating_follows calls u h) hij he hf hc with h1 | h1 | h1
  · exact .inl h1
  · obtain ⟨a, ha, site, p, ⟨rfl, rfl, hp⟩, h2⟩ := h1
    refine .inr ⟨e, by simp, hp, ?_⟩
    rcases h2 with rfl | rfl
    · exact .inl ha
    · exact .inr ha
  · obtain ⟨a, ha, site, p, ⟨rfl, rfl, hp⟩, h2⟩ := h1
    refine .inr ⟨f, by simp, hp, ?_⟩
    rcases h2 with rfl | rfl
    · exact .inl ha
    · exact .inr ha

/-- C121 for frame protectors, exactly, if one thread `u` makes all calls of `Unprotect`: there is no
data race if and only if no key update is received, or no other thread protects anything or asks for
sizes. -/
theorem C121_frame_protector_iff (calls : T → List Call) (u : T)
    (h : ∀ t, ∀ c ∈ calls t, c.unprotects = true → t = u) :
    (DataRaceFree fun t => thread (calls t)) ↔
      (∀ c ∈ calls u, c.updates = false) ∨ ∀ t, t ≠ u → ∀ c ∈ calls t, asksOverhead c = false := by
  constructor
  · intro hd
    apply Classical.byContradiction
    intro hno
    have hno := not_or.1 hno
    obtain ⟨d, hdd⟩ := Classical.not_forall.1 hno.1
    obtain ⟨hdd, hup⟩ := Classical.not_imp.1 hdd
    obtain ⟨t, ht⟩ := Classical.not_forall.1 hno.2
    obtain ⟨ht, hc⟩ := Classical.not_imp.1 ht
    obtain ⟨c, hc⟩ := Classical.not_forall.1 hc
    obtain ⟨hc, ha⟩ := Classical.not_imp.1 hc
    exact race_not_drf rfl (C32_update_breaks calls t u ht c d hc (by simpa using ha) hdd
      (by simpa using hup)).1 hd
  · rintro (hu | ha)
    · refine C121_no_update_partial calls (fun t c hc => ?_) (.inl ⟨u, h⟩)
      cases hx : c.updates with
      | false => rfl
      | true =>
        have : c.unprotects = true := by cases c <;> first | rfl | cases hx
        rw [h t c hc this] at hc
        rw [← hx]
        exact hu c hc
    · intro schedule i j e f hij he hf hc
      rcases C121_only_record_overhead_partial calls u h schedule i j e f hij he hf hc with
        h1 | ⟨x, hx, hne, h1⟩
      · exact h1
      · have hm : ∀ a, x.action = some a → a ∈ thread (calls x.thread) := by
          intro a ha
          simp only [List.mem_cons, List.not_mem_nil, or_false] at hx
          rcases hx with rfl | rfl
          · exact action_mem (updating_follows calls u h) he ha
          · exact action_mem (updating_follows calls u h) hf ha
        rcases h1 with h1 | h1
        · exact absurd rfl (never_overhead (ha _ hne) _ (hm _ h1)).1
        · exact absurd rfl (never_overhead (ha _ hne) _ (hm _ h1)).2

/-- A protecting thread, and one that receives a key update: a data race. -/
example : ¬ DataRaceFree fun t => thread (Demo.calls t) := fun h =>
  absurd ((C121_frame_protector_iff Demo.calls true (by decide)).1 h) (by decide)

/-- Two threads that unprotect single records have a data race even without key updates. -/
theorem C121_two_unprotect_counterexample :
    ∃ calls : Bool → List Call, (∀ t, ∀ x ∈ calls t, x.updates = false) ∧
      ¬ DataRaceFree fun t => thread (calls t) := by
  obtain ⟨calls, schedule, c, h1, h2, h3⟩ := C32_two_unprotect_race
  exact ⟨calls, h1, race_not_drf rfl ⟨schedule, c, h2, h3⟩⟩

/-- C121 for proxies, exactly: there is no data race if and only if no two threads make calls that
clash.  (What is said at `C60_safe_iff` about outcomes that are given applies here too.) -/
theorem C121_proxy_iff (calls : T → List ProxyCall) :
    (DataRaceFree fun t => proxyThread (calls t)) ↔
      ∀ t u, t ≠ u → ∀ c ∈ calls t, ∀ d ∈ calls u, clashes c d = false := by
  constructor
  · intro hd t u htu c hc d hdd
    cases hx : clashes c d with
    | false => rfl
    | true =>
      obtain ⟨x, y, hp, h⟩ := clash_race htu hc hdd hx
      exact absurd hd (race_not_drf hp h)
  · intro hno
    obtain ⟨_, hx, hf⟩ := no_clash_follows calls hno
    exact drf_of_follows hx hf

/-- Threads that exchange messages, however many. -/
example : DataRaceFree fun t => proxyThread (Demo.talk t) :=
  (C121_proxy_iff _).2 fun t u _ c hc d hd => by
    simp only [Demo.talk, List.mem_cons, List.not_mem_nil, or_false] at hc hd
    rcases hc with rfl | rfl | rfl <;> rcases hd with rfl | rfl | rfl <;> rfl

/-- A result that comes while the frame protector is made. -/
example : ¬ DataRaceFree fun t => proxyThread (Demo.late t) := fun h =>
  absurd ((C121_proxy_iff _).1 h false true (by decide) (.createFrameProtector true)
    (by decide) (.forPeer .complete) (by decide)) (by decide)

/-- The definition tells ordered accesses from others: with a mutex around both writes there is no
data race, without one there is. -/
example : (DataRaceFree (S := frameShape) (T := Bool) fun _ =>
      [.acquire .protectMu, .write .crypter, .release .protectMu]) ∧
    ¬ DataRaceFree (S := frameShape) (T := Bool) fun _ => [.write .crypter] := by
  constructor
  · exact drf_of_follows (R := show Rules frameShape Bool from
      { mayInstall := fun _ _ _ => False
        mayLoad := fun _ _ _ => True
        mayInstall_excl := by intro _ _ _ _ _ h; cases h
        mayInstall_mayLoad := by intro _ _ _ h; cases h
        may := fun _ _ (held : List Mutex) => Mutex.protectMu ∈ held
        may_excl := fun _ _ _ _ _ h h' => .inr ⟨_, h, h'⟩
        mayUse := fun _ _ _ => False
        mayUse_excl := by intro _ _ _ _ _ h; cases h
        exempt := fun _ _ _ => False
        rank := fun _ => 0 }) (fun _ _ _ => id) fun _ =>
      ⟨List.not_mem_nil, fun _ h => absurd h List.not_mem_nil, List.mem_cons_self,
        List.mem_cons_self, rfl⟩
  · exact race_not_drf (t := false) (u := true) (a := .write .crypter) (b := .write .crypter) rfl
      ⟨[], _, rfl, by decide, rfl, rfl, .var .crypter, true, true, by simp [touches],
        by simp [touches], rfl⟩

end S2A.Race
