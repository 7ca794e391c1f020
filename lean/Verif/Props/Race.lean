import Verif.Lemmas.Race
import Verif.Lemmas.Locks
import Verif.Spec.Race
/-
Threads that share a frame protector or a proxy.
-/
namespace S2A.Race
open Machine
variable {T : Type} [DecidableEq T]

theorem exec_steps {S : Shape} {c : Config S T} {u : T} (h : exec c u ≠ .stuck) :
    exec c u = .invalid ∨
      ∃ a rest c', c.prog u = a :: rest ∧ exec c u = .next c' ∧ c'.prog u = rest := by
  cases he : exec c u with
  | stuck => exact absurd he h
  | invalid => exact .inl rfl
  | next c' =>
    refine .inr ?_
    unfold exec at he
    cases hp : c.prog u with
    | nil => rw [hp] at he; cases he
    | cons a rest =>
      rw [hp] at he
      refine ⟨a, rest, c', rfl, rfl, ?_⟩
      have us : ∀ f : T → List (Action S), upd f u rest u = rest := fun f => by simp [upd]
      cases a with
      | acquire l =>
        simp only at he
        split at he
        · cases he
        · cases he; exact us _
      | deref site p part =>
        simp only at he
        split at he
        · cases he
        · split at he <;> cases he
          exact us _
      | free p =>
        simp only at he
        split at he
        · cases he
        · split at he <;> cases he
          exact us _
      | _ => cases he; exact us _

theorem safe_of_follows {S : Shape} {R : Rules S T} {prog : T → List (Action S)}
    (hx : ∀ t site p, ¬ R.exempt t site p) (h : ∀ t, Follows R t [] .nothing (prog t)) :
    Safe prog := by
  intro schedule
  cases hr : run (Config.init prog) schedule with
  | error e =>
    obtain ⟨c, t⟩ := e
    obtain ⟨hi, he⟩ := run_error (Inv.init h) hr
    obtain ⟨site, p, hp, _⟩ := exec_invalid hi he
    exact absurd hp (hx _ _ _)
  | ok c =>
    refine ⟨c, rfl, fun t a u b hrace => ?_⟩
    rcases race_exempt (run_inv (Inv.init h) hr) hrace with ⟨⟨site, p, hp, _⟩, _⟩ | ⟨⟨site, p, hp, _⟩, _⟩
    · exact hx _ _ _ hp
    · exact hx _ _ _ hp

theorem follows_flatMap {S : Shape} {R : Rules S T} {t : T} {α : Type} {l : List α}
    {f : α → List (Action S)} (h : ∀ x ∈ l, Block R t [] (f x)) :
    Follows R t [] .nothing (l.flatMap f) :=
  (Block.flatMap h).follows

/-! ### C32: Protect and Unprotect may run concurrently -/

/-- Without key updates there are rules that all calls follow. -/
theorem no_update_follows (calls : T → List Call)
    (hu : ∀ t, ∀ c ∈ calls t, c.updates = false)
    (h : (∃ u, ∀ t, ∀ c ∈ calls t, c.unprotects = true → t = u) ∨
      (∀ t r, .unprotectInto r ∉ calls t)) :
    ∃ R : Rules frameShape T, (∀ t site p, ¬ R.exempt t site p) ∧
      ∀ t, Follows R t [] .nothing (thread (calls t)) := by
  have noup : ∀ (R : Rules frameShape T) t c, c ∈ calls t → ∀ rs, c = .unprotect rs →
      ∀ r ∈ rs, r = .handshake (some true) → ∀ held', Mutex.half .inbound ∈ held' →
        R.mayInstall Half.inbound t held' := by
    intro R t c hc rs e r hr er
    have := hu t c hc
    subst e er
    simp only [Call.updates, List.contains_eq_mem, decide_eq_false_iff_not] at this
    exact absurd hr this
  rcases h with ⟨u, h⟩ | h
  · refine ⟨constant (some u), fun _ _ _ => id, fun t => follows_flatMap fun c hc => ?_⟩
    have F := constant_fits (some u) t
    cases hp : c.unprotects with
    | false => exact F.protect hp
    | true =>
      have e := h t c hc hp
      cases c with
      | unprotect rs => exact F.unprotect e (noup _ t _ hc rs rfl)
      | unprotectInto r =>
        refine F.unprotectInto e fun er => ?_
        have := hu t _ hc
        rw [er] at this
        cases this
      | protect rs => cases hp
      | protectInto rs => cases hp
      | size => cases hp
  · refine ⟨constant none, fun _ _ _ => id, fun t => follows_flatMap fun c hc => ?_⟩
    have F := constant_fits (none : Option T) t
    cases c with
    | unprotect rs => exact F.unprotect List.mem_cons_self (noup _ t _ hc rs rfl)
    | unprotectInto r => exact absurd hc (h t r)
    | protect rs => exact F.protect rfl
    | protectInto rs => exact F.protect rfl
    | size => exact F.protect rfl

/-- C32, in part.  Any number of threads call `Protect`, `Unprotect` and the size functions, and
one of them makes all calls of `Unprotect` - or all use the `Unprotect` that allocates.  As long
as no key update is received, no schedule leads to a race or to the use of a deleted object.
What is missing: key updates, with which the claim is false (`C32_use_after_free`,
`C32_race`). -/
theorem C32_no_update_partial (calls : T → List Call)
    (hu : ∀ t, ∀ c ∈ calls t, c.updates = false)
    (h : (∃ u, ∀ t, ∀ c ∈ calls t, c.unprotects = true → t = u) ∨
      (∀ t r, .unprotectInto r ∉ calls t)) :
    Safe fun t => thread (calls t) :=
  have ⟨_, hx, hf⟩ := no_update_follows calls hu h
  safe_of_follows hx hf

/-- If one thread unprotects, all follow the rules but for `RecordOverhead` in the others. -/
theorem updating_follows (calls : T → List Call) (u : T)
    (h : ∀ t, ∀ c ∈ calls t, c.unprotects = true → t = u) (t : T) :
    Follows (updating u) t [] .nothing (thread (calls t)) :=
  follows_flatMap fun c hc => by
    have F := updating_fits u t
    cases hp : c.unprotects with
    | false => exact F.protect hp
    | true =>
      have e := h t c hc hp
      have hi : ∀ held', Mutex.half .inbound ∈ held' →
          (updating u).mayInstall Half.inbound t held' := fun held' hm => ⟨rfl, e, hm⟩
      cases c with
      | unprotect rs => exact F.unprotect e fun _ _ _ => hi
      | unprotectInto r => exact F.unprotectInto e fun _ => hi
      | protect rs => cases hp
      | protectInto rs => cases hp
      | size => cases hp

/-- C32, in part.  One thread `u` calls `Unprotect`, and may receive key updates; any other
threads call `Protect` and the size functions.  The only uses of deleted objects, and the only
races, are those of `RecordOverhead` in another thread, which reads the tag length from the AEAD
object of the receiving half connection without its lock, while `u` replaces that object. -/
theorem C32_only_record_overhead_partial (calls : T → List Call) (u : T)
    (h : ∀ t, ∀ c ∈ calls t, c.unprotects = true → t = u) (schedule : List T) :
    (∀ c t, run (.init fun t => thread (calls t)) schedule = .error (c, t) →
      t ≠ u ∧ (c.prog t).head? = some (.deref .recordOverhead .inbound .fixed)) ∧
    (∀ c t a v b, run (.init fun t => thread (calls t)) schedule = .ok c → Race c t a v b →
      (t ≠ u ∧ v = u ∧
        (a = .load .recordOverhead .inbound ∨ a = .deref .recordOverhead .inbound .fixed) ∧
        (b = .install .inbound ∨ b = .free .inbound)) ∨
      (v ≠ u ∧ t = u ∧
        (b = .load .recordOverhead .inbound ∨ b = .deref .recordOverhead .inbound .fixed) ∧
        (a = .install .inbound ∨ a = .free .inbound))) := by
  have hf := updating_follows calls u h
  constructor
  · intro c t hr
    obtain ⟨hi, he⟩ := run_error (Inv.init hf) hr
    obtain ⟨site, p, ⟨rfl, rfl, hp⟩, h2⟩ := exec_invalid hi he
    exact ⟨hp, h2⟩
  · intro c t a v b hr hrace
    rcases race_exempt (run_inv (Inv.init hf) hr) hrace with
      ⟨⟨site, p, ⟨rfl, rfl, hp⟩, h2⟩, q, held, ⟨rfl, rfl, _⟩, h3⟩ |
      ⟨⟨site, p, ⟨rfl, rfl, hp⟩, h2⟩, q, held, ⟨rfl, rfl, _⟩, h3⟩
    · exact .inl ⟨hp, rfl, h2, h3⟩
    · exact .inr ⟨hp, rfl, h2, h3⟩

namespace Demo

/-- Thread `false` protects one record, thread `true` unprotects a record with a key update. -/
def calls : Bool → List Call
  | false => [.protect [.tried true true]]
  | true => [.unprotectInto (.handshake (some true))]

/-- The same without a key update. -/
def quiet : Bool → List Call
  | false => [.protect [.tried true true, .tried true true], .size]
  | true => [.unprotect [.handshake none, .data true], .unprotectInto (.alert true)]

/-- Any number of threads, numbered, that all protect and unprotect. -/
def many : Nat → List Call := fun n =>
  [.protect (List.replicate n (.tried true true)), .unprotect [.data false, .alert true]]

end Demo

example : Safe fun t => thread (Demo.quiet t) :=
  C32_no_update_partial _ (by decide) (.inl ⟨true, by decide⟩)

example : Safe fun t => thread (Demo.many t) :=
  C32_no_update_partial _ (fun t c hc => by
    simp only [Demo.many, List.mem_cons, List.not_mem_nil, or_false] at hc
    rcases hc with rfl | rfl <;> rfl) (.inr fun t r hc => by
    simp [Demo.many] at hc)

example (schedule : List Bool) (c : Config frameShape Bool) (t : Bool)
    (h : run (.init fun t => thread (Demo.calls t)) schedule = .error (c, t)) : t = false :=
  (by simpa using ((C32_only_record_overhead_partial Demo.calls true (by decide) schedule).1 c t h).1)

/-- C32 is false: while thread `false` is in `Protect`, having read the pointer to the AEAD object
of the receiving half connection, thread `true` receives a key update in `Unprotect`, which
deletes the object. -/
theorem C32_use_after_free :
    ∃ (calls : Bool → List Call) (schedule : List Bool) (c : Config frameShape Bool),
      (∀ x ∈ calls false, x.unprotects = false) ∧ (∀ x ∈ calls true, x.unprotects = true) ∧
      run (.init fun t => thread (calls t)) schedule = .error (c, false) := by
  refine ⟨Demo.calls, false :: List.replicate 24 true ++ [false], ?_⟩
  have : ∃ c, run (.init fun t => thread (Demo.calls t))
      (false :: List.replicate 24 true ++ [false]) = .error (c, false) := by
    exact ⟨_, rfl⟩
  obtain ⟨c, hc⟩ := this
  exact ⟨c, by decide, by decide, hc⟩

/-- C32 is false: there is a data race between the read of the pointer in `Protect` and its
replacement in `Unprotect`. -/
theorem C32_race :
    ∃ (calls : Bool → List Call) (schedule : List Bool) (c : Config frameShape Bool),
      (∀ x ∈ calls false, x.unprotects = false) ∧ (∀ x ∈ calls true, x.unprotects = true) ∧
      run (.init fun t => thread (calls t)) schedule = .ok c ∧
      Race c false (.load .recordOverhead .inbound) true (.install .inbound) := by
  refine ⟨Demo.calls, List.replicate 18 true, ?_⟩
  have : ∃ c, run (.init fun t => thread (Demo.calls t)) (List.replicate 18 true) = .ok c ∧
      (c.prog false).head? = some (.load .recordOverhead .inbound) ∧
      (c.prog true).head? = some (.install .inbound) := by
    exact ⟨_, rfl, rfl, rfl⟩
  obtain ⟨c, hc, h1, h2⟩ := this
  exact ⟨c, by decide, by decide, hc, by decide, h1, h2, .ptr .inbound, false, true, by
    simp [touches], by simp [touches], rfl⟩

/-- Two threads that unprotect single records race even without key updates: on the state of
the crypter, which no lock protects. -/
theorem C32_two_unprotect_race :
    ∃ (calls : Bool → List Call) (schedule : List Bool) (c : Config frameShape Bool),
      (∀ t, ∀ x ∈ calls t, x.updates = false) ∧
      run (.init fun t => thread (calls t)) schedule = .ok c ∧
      Race c false (.read .crypter) true (.write .crypter) := by
  let calls : Bool → List Call := fun t => [.unprotectInto (.alert true)]
  refine ⟨calls, [false, false] ++ List.replicate 15 true, ?_⟩
  have : ∃ c, run (.init fun t => thread (calls t)) ([false, false] ++ List.replicate 15 true) =
        .ok c ∧
      (c.prog false).head? = some (.read .crypter) ∧
      (c.prog true).head? = some (.write .crypter) := by
    exact ⟨_, rfl, rfl, rfl⟩
  obtain ⟨c, hc, h1, h2⟩ := this
  exact ⟨c, by decide, hc, by decide, h1, h2, .var .crypter, false, true, by
    simp [touches], by simp [touches], rfl⟩

/-! ### C59: no deadlock -/

theorem noDeadlock_of_ordered {S : Shape} {rank : S.Lock → Nat} {B : Nat}
    (hB : ∀ l, rank l ≤ B) {prog : T → List (Action S)} (h : ∀ t, Ordered rank [] (prog t)) :
    NoDeadlock prog := by
  intro schedule c hr ⟨t, ht⟩
  obtain ⟨u, hu⟩ := held_progress (held_run (held_init h) hr) hB ht
  exact ⟨u, exec_steps hu⟩

/-- C59 for frame protectors: whatever calls any number of threads make, they never all wait. -/
theorem C59_frame_protector (calls : T → List Call) : NoDeadlock fun t => thread (calls t) :=
  noDeadlock_of_ordered (rank := order) (B := 1) (fun l => by cases l <;> simp [order])
    fun t => thread_ordered (calls t)

/-- C59 for proxies. -/
theorem C59_proxy (calls : T → List ProxyCall) : NoDeadlock fun t => proxyThread (calls t) :=
  noDeadlock_of_ordered (rank := fun _ => 0) (B := 0) (fun _ => Nat.le_refl _)
    fun t => proxyThread_ordered (calls t)

/-- With other locks taken in other orders the claim is false: `NoDeadlock` says something. -/
example : ¬ NoDeadlock (S := frameShape) (T := Bool) (fun
    | false => [.acquire .protectMu, .acquire .unprotectMu]
    | true => [.acquire .unprotectMu, .acquire .protectMu]) := by
  intro h
  have := h [false, true] _ rfl ⟨true, by decide⟩
  obtain ⟨u, h | ⟨a, rest, c', h1, h2, h3⟩⟩ := this
  · cases u <;> cases h
  · cases u <;> cases h2

/-! ### C60: threads sharing a proxy -/

/-- C60, in part: the calls that exchange messages, and the question whether the handshake is
finished, may be made by any threads. -/
theorem C60_handshake_calls_partial (calls : T → List ProxyCall)
    (h : ∀ t, ∀ c ∈ calls t, c.unlocked = false) : Safe fun t => proxyThread (calls t) :=
  safe_of_follows (R := locked) (fun _ _ _ => id) fun t => follows_flatMap fun c hc =>
    lockedCall List.mem_cons_self c (h t c hc) fun _ _ => ⟨List.mem_cons_self, List.mem_cons_self⟩

/-- C60, in part: one thread receives the results, and creates the frame protector and takes the
context; others may make all other calls. -/
theorem C60_one_thread_partial (calls : T → List ProxyCall) (u : T)
    (h : ∀ t, ∀ c ∈ calls t, c.unlocked = true ∨ c.stores = true → t = u) :
    Safe fun t => proxyThread (calls t) :=
  safe_of_follows (R := owned u) (fun _ _ _ => id) fun t => follows_flatMap fun c hc => by
    by_cases e : t = u
    · subst e
      exact ownedCall c
    · refine lockedCall List.mem_cons_self c ?_ fun hs => absurd (h t c hc (.inr hs)) e
      cases hc' : c.unlocked with
      | false => rfl
      | true => exact absurd (h t c hc (.inl hc')) e

namespace Demo

/-- Every thread exchanges messages. -/
def talk : Nat → List ProxyCall := fun _ => [.forS2A, .forPeer .complete, .isFinished]

/-- Thread `true` also takes the outcome; thread `false` watches. -/
def watch : Bool → List ProxyCall
  | true => [.forS2A, .forPeer .complete, .createFrameProtector true, .getContext true]
  | false => [.isFinished, .createFrameProtector false, .forPeer .noResult]

/-- Thread `true` receives a second result while thread `false` creates the frame protector. -/
def late : Bool → List ProxyCall
  | true => [.forPeer .complete, .forPeer .complete]
  | false => [.createFrameProtector true]

end Demo

example : Safe fun t => proxyThread (Demo.talk t) :=
  C60_handshake_calls_partial _ (fun t c hc => by
    simp only [Demo.talk, List.mem_cons, List.not_mem_nil, or_false] at hc
    rcases hc with rfl | rfl | rfl <;> rfl)

example : Safe fun t => proxyThread (Demo.watch t) :=
  C60_one_thread_partial _ true (by decide)

/-- C60 is false: while thread `false` creates the frame protector, thread `true` receives another
result, which deletes the one in use. -/
theorem C60_use_after_free :
    ∃ (calls : Bool → List ProxyCall) (schedule : List Bool) (c : Config proxyShape Bool),
      run (.init fun t => proxyThread (calls t)) schedule = .error (c, false) := by
  refine ⟨Demo.late,
    List.replicate 11 true ++ List.replicate 4 false ++ List.replicate 11 true ++ [false], ?_⟩
  exact ⟨_, rfl⟩

/-- C60 is false: two threads that create frame protectors race. -/
theorem C60_create_race :
    ∃ (calls : Bool → List ProxyCall) (schedule : List Bool) (c : Config proxyShape Bool),
      (∀ t, ∀ x ∈ calls t, x.stores = false) ∧
      run (.init fun t => proxyThread (calls t)) schedule = .ok c ∧
      Race c false (.write .channel) true (.write .channel) := by
  let calls : Bool → List ProxyCall := fun _ => [.createFrameProtector true]
  refine ⟨calls, List.replicate 5 true ++ List.replicate 5 false, ?_⟩
  have : ∃ c, run (.init fun t => proxyThread (calls t))
        (List.replicate 5 true ++ List.replicate 5 false) = .ok c ∧
      (c.prog false).head? = some (.write .channel) ∧
      (c.prog true).head? = some (.write .channel) := by
    exact ⟨_, rfl, rfl, rfl⟩
  obtain ⟨c, hc, h1, h2⟩ := this
  exact ⟨c, by decide, hc, by decide, h1, h2, .var .channel, true, true, by
    simp [touches], by simp [touches], rfl⟩

end S2A.Race
