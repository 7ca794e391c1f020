import Verif.Model.Machine
import Verif.Model.Race
/-
Programs that take locks in ascending order and release them do not deadlock.
-/
namespace S2A.Machine
variable {S : Shape} {T : Type} [DecidableEq T]

/-- The locks are taken in ascending order and released. -/
def Ordered (rank : S.Lock → Nat) : List S.Lock → List (Action S) → Prop
  | held, [] => held = []
  | held, .acquire l :: as =>
    l ∉ held ∧ (∀ l' ∈ held, rank l' < rank l) ∧ Ordered rank (l :: held) as
  | held, .release l :: as => l ∈ held ∧ Ordered rank (held.erase l) as
  | held, _ :: as => Ordered rank held as

/-- A block of actions that leaves the locks as it found them. -/
def OrderedBlock (rank : S.Lock → Nat) (held : List S.Lock) (as : List (Action S)) : Prop :=
  ∀ rest, Ordered rank held rest → Ordered rank held (as ++ rest)

theorem OrderedBlock.nil {rank : S.Lock → Nat} {held : List S.Lock} : OrderedBlock rank held [] :=
  fun _ h => h

theorem OrderedBlock.append {rank : S.Lock → Nat} {held : List S.Lock} {as bs : List (Action S)}
    (ha : OrderedBlock rank held as) (hb : OrderedBlock rank held bs) :
    OrderedBlock rank held (as ++ bs) := by
  intro rest h
  rw [List.append_assoc]
  exact ha _ (hb _ h)

theorem OrderedBlock.flatMap {α : Type} {rank : S.Lock → Nat} {held : List S.Lock} {l : List α}
    {f : α → List (Action S)} (h : ∀ x ∈ l, OrderedBlock rank held (f x)) :
    OrderedBlock rank held (l.flatMap f) := by
  induction l with
  | nil => exact .nil
  | cons x l ih =>
    rw [List.flatMap_cons]
    exact (h x (by simp)).append (ih fun y hy => h y (by simp [hy]))

theorem OrderedBlock.locked {rank : S.Lock → Nat} {held : List S.Lock} {as : List (Action S)}
    {l : S.Lock} (hl : l ∉ held) (hr : ∀ l' ∈ held, rank l' < rank l)
    (h : OrderedBlock rank (l :: held) as) :
    OrderedBlock rank held (.acquire l :: as ++ [.release l]) := by
  intro rest hrest
  refine ⟨hl, hr, ?_⟩
  show Ordered rank (l :: held) ((as ++ [.release l]) ++ rest)
  rw [List.append_assoc]
  exact h _ ⟨List.mem_cons_self, by simpa using hrest⟩

/-- The locks held by a thread are those it has still to release. -/
structure Held (rank : S.Lock → Nat) (c : Config S T) (t : T) (held : List S.Lock) : Prop where
  ordered : Ordered rank held (c.prog t)
  holds : ∀ l, c.holder l = some t ↔ l ∈ held
  nodup : held.Nodup

theorem Held.frame {rank : S.Lock → Nat} {c c' : Config S T} {t : T} {held : List S.Lock}
    (h : Held rank c t held) (hp : c'.prog t = c.prog t)
    (hl : ∀ l, c'.holder l = some t ↔ c.holder l = some t) : Held rank c' t held :=
  ⟨hp ▸ h.ordered, fun l => (hl l).trans (h.holds l), h.nodup⟩

theorem held_exec {rank : S.Lock → Nat} {c c' : Config S T} {t : T}
    (hi : ∀ t, ∃ held, Held rank c t held) (h : exec c t = .next c') :
    ∀ t, ∃ held, Held rank c' t held := by
  have updS : ∀ {α β : Type} [DecidableEq α] (f : α → β) (a : α) (b : β), upd f a b a = b := by
    intro α β _ f a b; simp [upd]
  have updO : ∀ {α β : Type} [DecidableEq α] (f : α → β) {a x : α} (b : β), x ≠ a →
      upd f a b x = f x := by
    intro α β _ f a x b hx; simp [upd, hx]
  intro u
  obtain ⟨held, ht⟩ := hi t
  unfold exec at h
  cases hp : c.prog t with
  | nil => rw [hp] at h; cases h
  | cons a rest =>
    rw [hp] at h
    have ho := ht.ordered
    rw [hp] at ho
    -- actions that are no locks
    have plain : Ordered rank held rest → c'.prog = upd c.prog t rest → c'.holder = c.holder →
        ∃ held, Held rank c' u held := by
      intro h1 h2 h3
      by_cases hu : u = t
      · subst hu
        refine ⟨held, ?_, fun l => by rw [h3]; exact ht.holds l, ht.nodup⟩
        rw [h2, updS]
        exact h1
      · obtain ⟨held', hv⟩ := hi u
        exact ⟨held', hv.frame (by rw [h2, updO _ _ hu]) fun l => by rw [h3]⟩
    cases a with
    | acquire l =>
      simp only at h
      cases hl : c.holder l with
      | some v => rw [hl] at h; cases h
      | none =>
        rw [hl] at h
        cases h
        by_cases hu : u = t
        · subst hu
          refine ⟨l :: held, ?_, ?_, ?_⟩
          · show Ordered rank (l :: held) (upd c.prog u rest u)
            rw [updS]
            exact ho.2.2
          · intro l'
            show upd c.holder l (some u) l' = some u ↔ _
            by_cases e : l' = l
            · subst e; simp [updS]
            · rw [updO _ _ e, ht.holds]; simp [e]
          · exact List.nodup_cons.2 ⟨ho.1, ht.nodup⟩
        · obtain ⟨held', hv⟩ := hi u
          refine ⟨held', hv.frame (updO _ _ hu) ?_⟩
          intro l'
          show upd c.holder l (some t) l' = some u ↔ _
          by_cases e : l' = l
          · subst e
            rw [updS, hl]
            simp [Ne.symm hu]
          · rw [updO _ _ e]
    | release l =>
      cases h
      by_cases hu : u = t
      · subst hu
        refine ⟨held.erase l, ?_, ?_, ht.nodup.erase l⟩
        · show Ordered rank _ (upd c.prog u rest u)
          rw [updS]
          exact ho.2
        · intro l'
          show upd c.holder l none l' = some u ↔ _
          by_cases e : l' = l
          · subst e
            rw [updS]
            simp [ht.nodup.not_mem_erase]
          · rw [updO _ _ e, ht.holds, List.mem_erase_of_ne e]
      · obtain ⟨held', hv⟩ := hi u
        refine ⟨held', hv.frame (updO _ _ hu) ?_⟩
        intro l'
        show upd c.holder l none l' = some u ↔ _
        by_cases e : l' = l
        · subst e
          rw [updS, (ht.holds l').2 ho.1]
          simp [Ne.symm hu]
        · rw [updO _ _ e]
    | load site p => cases h; exact plain ho rfl rfl
    | deref site p part =>
      simp only at h
      split at h
      · cases h
      · split at h <;> cases h
        exact plain ho rfl rfl
    | install p => cases h; exact plain ho rfl rfl
    | free p =>
      simp only at h
      split at h
      · cases h
      · split at h <;> cases h
        exact plain ho rfl rfl
    | read v => cases h; exact plain ho rfl rfl
    | write v => cases h; exact plain ho rfl rfl

theorem held_run {rank : S.Lock → Nat} {c c' : Config S T} {ts : List T}
    (hi : ∀ t, ∃ held, Held rank c t held) (h : run c ts = .ok c') :
    ∀ t, ∃ held, Held rank c' t held := by
  induction ts generalizing c with
  | nil => cases h; exact hi
  | cons t ts ih =>
    unfold run at h
    cases he : exec c t with
    | stuck => rw [he] at h; exact ih hi h
    | next c1 => rw [he] at h; exact ih (held_exec hi he) h
    | invalid => rw [he] at h; cases h

theorem held_init {rank : S.Lock → Nat} {prog : T → List (Action S)}
    (h : ∀ t, Ordered rank [] (prog t)) : ∀ t, ∃ held, Held rank (Config.init prog) t held :=
  fun t => ⟨[], h t, fun l => by simp [Config.init], List.nodup_nil⟩

/-- A thread waits only for a lock that some thread holds. -/
theorem exec_waits {c : Config S T} {t : T} (h : exec c t = .stuck) :
    c.prog t = [] ∨ ∃ l u, (c.prog t).head? = some (.acquire l) ∧ c.holder l = some u := by
  unfold exec at h
  cases hp : c.prog t with
  | nil => exact .inl rfl
  | cons a rest =>
    rw [hp] at h
    cases a with
    | acquire l =>
      simp only at h
      cases hl : c.holder l with
      | some u => exact .inr ⟨l, u, rfl, hl⟩
      | none => rw [hl] at h; cases h
    | deref site p part => simp only at h; split at h; · cases h
                           · split at h <;> cases h
    | free p => simp only at h; split at h; · cases h
                · split at h <;> cases h
    | _ => cases h

/-- If some thread has not finished, some thread can go on. -/
theorem held_progress {rank : S.Lock → Nat} {c : Config S T}
    (hi : ∀ t, ∃ held, Held rank c t held) {B : Nat} (hB : ∀ l, rank l ≤ B) {t : T}
    (ht : c.prog t ≠ []) : ∃ u, exec c u ≠ .stuck := by
  have key : ∀ n : Nat, ∀ (t : T) (l : S.Lock), (c.prog t).head? = some (.acquire l) →
      B - rank l < n → ∃ u, exec c u ≠ .stuck := by
    intro n
    induction n with
    | zero => intro t l _ h; omega
    | succ n ih =>
      intro t l hl hn
      by_cases hs : exec c t = .stuck
      · rcases exec_waits hs with h | ⟨l', u, h1, h2⟩
        · rw [h] at hl; cases hl
        · rw [hl] at h1
          cases h1
          by_cases hu : exec c u = .stuck
          · obtain ⟨held, hk⟩ := hi u
            have hm := (hk.holds l).1 h2
            have ho := hk.ordered
            rcases exec_waits hu with h | ⟨l', v, h3, h4⟩
            · rw [h] at ho
              cases ho
              cases hm
            · cases hp : c.prog u with
              | nil => rw [hp] at h3; cases h3
              | cons a rest =>
                rw [hp] at h3 ho
                cases h3
                have := ho.2.1 l hm
                have := hB l'
                exact ih u l' (by rw [hp]; rfl) (by omega)
          · exact ⟨u, hu⟩
      · exact ⟨t, hs⟩
  by_cases hs : exec c t = .stuck
  · rcases exec_waits hs with h | ⟨l, u, h1, h2⟩
    · exact absurd h ht
    · exact key _ t l h1 (Nat.lt_succ_self _)
  · exact ⟨t, hs⟩

end S2A.Machine

namespace S2A.Race
open Machine

/-- The half connections' locks come last. -/
def order : Mutex → Nat
  | .half _ => 1
  | _ => 0

theorem overhead_ordered (held : List Mutex) :
    OrderedBlock (S := frameShape) order held overhead := fun _ h => h

/-- Locks that may be held when a half connection is called. -/
def Before (held : List Mutex) : Prop := ∀ l ∈ held, order l = 0

theorem crypt_ordered {held : List Mutex} (ho : Before held) (h : Half) (usable : Bool) :
    OrderedBlock (S := frameShape) order held (crypt h usable) := by
  refine OrderedBlock.locked (fun hm => ?_) (fun l hl => ?_) ?_
  · have := ho _ hm; cases this
  · rw [ho l hl]; exact Nat.zero_lt_one
  · cases usable <;> exact fun _ h => h

theorem updateKey_ordered {held : List Mutex} (ho : Before held) (h : Half) (ok : Bool) :
    OrderedBlock (S := frameShape) order held (updateKey h ok) := by
  refine OrderedBlock.locked (fun hm => ?_) (fun l hl => ?_) ?_
  · have := ho _ hm; cases this
  · rw [ho l hl]; exact Nat.zero_lt_one
  · cases ok <;> exact fun _ h => h

theorem protectOne_ordered {held : List Mutex} (ho : Before held) (r : Sealing) :
    OrderedBlock (S := frameShape) order held (protectOne r) := by
  refine OrderedBlock.append ?_ ?_
  · cases r with
    | tooLong => exact .nil
    | tooSmall => exact fun _ h => h
    | badType => exact fun _ h => h
    | tried usable ok =>
      refine OrderedBlock.append ?_ (crypt_ordered ho _ _)
      exact fun _ h => h
  · split <;> exact fun _ h => h

theorem crypterUnprotect_ordered {held : List Mutex} (ho : Before held) (r : Opening) :
    OrderedBlock (S := frameShape) order held (crypterUnprotect r) := by
  have dec : ∀ b, OrderedBlock (S := frameShape) order held
      (.read .crypter :: overhead ++ overhead ++ crypt .inbound b) :=
    fun b => OrderedBlock.append (fun _ h => h) (crypt_ordered ho _ b)
  cases r with
  | misframed => exact .nil
  | closed => exact fun _ h => h
  | tooShort => exact fun _ h => h
  | tooLong => exact fun _ h => h
  | badHeader => exact fun _ h => h
  | refused usable => exact dec usable
  | invalid => exact dec true
  | alert cn =>
    refine (dec true).append ?_
    split <;> exact fun _ h => h
  | data sends =>
    refine (dec true).append ?_
    split <;> exact fun _ h => h
  | handshake update =>
    refine (((dec true).append (bs := [Action.write Member.crypter]) fun _ h => h).append ?_).append
      (fun _ h => h)
    cases update with
    | none => exact .nil
    | some ok => exact updateKey_ordered ho _ ok

theorem call_ordered (c : Call) : OrderedBlock (S := frameShape) order [] c.actions := by
  have nil : Before [] := fun _ h => by cases h
  have one : ∀ m, order m = 0 → Before [m] := fun m h l hl => by
    rw [List.mem_singleton.1 hl]; exact h
  have lk : ∀ {m as}, OrderedBlock (S := frameShape) order [m] as →
      OrderedBlock (S := frameShape) order [] (.acquire m :: as ++ [.release m]) := fun h =>
    OrderedBlock.locked List.not_mem_nil (fun _ h => absurd h List.not_mem_nil) h
  cases c with
  | protect rs =>
    exact (overhead_ordered _).append (lk (OrderedBlock.flatMap fun r _ =>
      protectOne_ordered (one _ rfl) r))
  | protectInto rs => exact lk (OrderedBlock.flatMap fun r _ => protectOne_ordered (one _ rfl) r)
  | unprotect rs =>
    refine (overhead_ordered _).append (lk (OrderedBlock.append ?_ (overhead_ordered _)))
    exact OrderedBlock.flatMap fun r _ =>
      (overhead_ordered _).append (crypterUnprotect_ordered (one _ rfl) r)
  | unprotectInto r => exact (overhead_ordered _).append (crypterUnprotect_ordered nil r)
  | size => exact overhead_ordered _

theorem thread_ordered (calls : List Call) : Ordered (S := frameShape) order [] (thread calls) := by
  have := OrderedBlock.flatMap (fun c (_ : c ∈ calls) => call_ordered c) [] rfl
  rw [List.append_nil] at this
  exact this

theorem proxyCall_ordered (c : ProxyCall) :
    OrderedBlock (S := proxyShape) (fun _ => 0) [] c.actions := by
  have lk : ∀ {as}, OrderedBlock (S := proxyShape) (fun _ => 0) [()] as →
      OrderedBlock (S := proxyShape) (fun _ => 0) [] (.acquire () :: as ++ [.release ()]) :=
    fun h => OrderedBlock.locked List.not_mem_nil (fun _ h => absurd h List.not_mem_nil) h
  cases c with
  | forS2A => exact lk fun _ h => h
  | forPeer r =>
    cases r with
    | incomplete n =>
      refine lk (OrderedBlock.append (as := [Action.write ProxyVar.state]) (fun _ h => h)
        (OrderedBlock.append (fun _ h => h) (OrderedBlock.flatMap fun _ _ => ?_)))
      exact fun _ h => h
    | _ => exact lk fun _ h => h
  | isFinished => exact lk fun _ h => h
  | createFrameProtector finished =>
    refine OrderedBlock.append (lk fun _ h => h) ?_
    split <;> exact fun _ h => h
  | getContext finished =>
    refine OrderedBlock.append (lk fun _ h => h) ?_
    split <;> exact fun _ h => h

theorem proxyThread_ordered (calls : List ProxyCall) :
    Ordered (S := proxyShape) (fun _ => 0) [] (proxyThread calls) := by
  have := OrderedBlock.flatMap (fun c (_ : c ∈ calls) => proxyCall_ordered c) [] rfl
  rw [List.append_nil] at this
  exact this

end S2A.Race
