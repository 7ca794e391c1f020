import Verif.Lemmas.Race
import Verif.Lemmas.Locks
import Verif.Lemmas.Solo
import Verif.Lemmas.HappensBefore
import Verif.Spec.Race
/-
For C32 and C60: which calls may not be made at the same time.
-/
namespace S2A.Race
open Machine
open Spec (clashes asksOverhead)
variable {T : Type} [DecidableEq T]

/-- Two threads get to two points of their programs, if the first holds no locks there. -/
theorem both_reach {S : Shape} {prog : T → List (Action S)} {t u : T} (htu : t ≠ u)
    {as ar bs br : List (Action S)} {k held' k'} (ht : prog t = as ++ ar) (hu : prog u = bs ++ br)
    (sa : Solo [] .nothing as [] k) (sb : Solo [] .nothing bs held' k') :
    ∃ schedule c, run (.init prog) schedule = .ok c ∧ c.prog t = ar ∧ c.prog u = br ∧
      (∀ p n, c.freed (p, n) = true → n < c.ver p) ∧ KnownTrue c u k' := by
  obtain ⟨c1, g1, g2, g3, g4, g5, g6⟩ := solo_run t as ar (.init prog) sa ht trivial
    (fun p n h => by simp [Config.init] at h) (fun l _ => .inl rfl)
  obtain ⟨c2, k1, k2, k3, k4, k5, _⟩ := solo_run u bs br c1 sb
    (by rw [g2, upd_other _ _ htu.symm]; exact hu) trivial g4
    (fun l _ => .inl ((g6 l (.inl rfl)).resolve_right (by simp)))
  refine ⟨_, c2, by rw [run_append g1, k1], ?_, ?_, k4, k5⟩
  · rw [k2, upd_other _ _ htu, g2, upd_same]
  · rw [k2, upd_same]

/-- The two threads race if they touch the same pointer or variable there. -/
theorem both_race {S : Shape} {prog : T → List (Action S)} {t u : T} (htu : t ≠ u)
    {as ar bs br : List (Action S)} {x y : Action S} {k held' k'} (ht : prog t = as ++ x :: ar)
    (hu : prog u = bs ++ y :: br)
    (sa : Solo [] .nothing as [] k) (sb : Solo [] .nothing bs held' k')
    (hxy : ∀ c : Config S T, ∃ loc w w', (loc, w) ∈ touches c t x ∧ (loc, w') ∈ touches c u y ∧
      (w || w') = true) :
    ∃ schedule c, run (.init prog) schedule = .ok c ∧ Race c t x u y := by
  obtain ⟨sch, c, h1, h2, h3, _⟩ := both_reach htu ht hu sa sb
  exact ⟨sch, c, h1, htu, by rw [h2]; rfl, by rw [h3]; rfl, hxy c⟩

theorem not_safe_of_race {S : Shape} {prog : T → List (Action S)} {t u : T} {x y : Action S}
    (h : ∃ schedule c, run (.init prog) schedule = .ok c ∧ Race c t x u y) : ¬ Safe prog := by
  obtain ⟨sch, c, h1, h2⟩ := h
  intro hs
  obtain ⟨c', h3, h4⟩ := hs sch
  rw [h1] at h3
  cases h3
  exact h4 _ _ _ _ h2

/-! ### The proxy -/

/-- Who may use what: the thread named, or without one whoever holds the lock. -/
def own (o : Option T) (t : T) (held : List Unit) : Prop :=
  match o with
  | some u => t = u
  | none => () ∈ held

theorem own_excl {o : Option T} {t held u held'} (h : own o t held) (h' : own o u held') :
    t = u ∨ ∃ l, l ∈ held ∧ l ∈ held' := by
  cases o with
  | some v => exact .inl (Eq.trans h (Eq.symm h'))
  | none => exact .inr ⟨(), h, h'⟩

/-- Who handles the pointer. -/
def ownPtr (r x : Option T) : ProxyPtr → T → List Unit → Prop
  | .result, t, held => own r t held
  | .context, t, held => own x t held

theorem ownPtr_excl {r x : Option T} {p t held u held'} (h : ownPtr r x p t held)
    (h' : ownPtr r x p u held') : t = u ∨ ∃ l, l ∈ held ∧ l ∈ held' := by
  cases p with
  | result => exact own_excl h h'
  | context => exact own_excl h h'

/-- One thread handles the results, another the contexts. -/
def shared (r x : Option T) : Rules proxyShape T where
  mayInstall p t held := ownPtr r x p t held
  mayLoad p t held := ownPtr r x p t held
  mayInstall_excl := fun _ _ _ _ _ h h' => ownPtr_excl h h'
  mayInstall_mayLoad := fun _ _ _ h => h
  may v t held := match v with
    | ProxyVar.state => () ∈ held
    | ProxyVar.channel => own r t held
  may_excl := by
    intro v t held w held' h h'
    cases v with
    | state => exact .inr ⟨_, h, h'⟩
    | channel => exact own_excl h h'
  mayUse p t held := ownPtr r x p t held
  mayUse_excl := fun _ _ _ _ _ h h' => ownPtr_excl h h'
  exempt _ _ _ := False
  rank _ := 0

theorem sharedCall {r x : Option T} {t : T} (c : ProxyCall)
    (h1 : c.stores = true → own r t [()]) (h2 : c = .forPeer .complete → own x t [()])
    (h3 : c = .createFrameProtector true → own r t [])
    (h4 : c = .getContext true → own x t []) : Block (shared r x) t [] c.actions := by
  have rd : Block (shared r x) t [()] [.read .state] :=
    fun k rest h => ⟨List.mem_cons_self, h.mono _⟩
  have wr : Block (shared r x) t [()] [.write .state] :=
    fun k rest h => ⟨List.mem_cons_self, h.mono _⟩
  have lk : ∀ {as}, Block (shared r x) t [()] as →
      Block (shared r x) t [] (.acquire () :: as ++ [.release ()]) :=
    fun h => Block.locked List.not_mem_nil (fun _ h => absurd h List.not_mem_nil) h
  have asg : ∀ p, ownPtr r x p t [()] → Block (shared r x) t [()] (assign p) :=
    fun p h1 k rest h => ⟨h1, rfl, h⟩
  have fl : ∀ held p, ownPtr r x p t held → Block (shared r x) t held (fill p) :=
    fun held p h1 k rest h => .inr ⟨h1, .inr ⟨rfl, fun _ => h1, h.mono _⟩⟩
  cases c with
  | forS2A => exact lk (rd.append wr)
  | forPeer o =>
    cases o with
    | noResult => exact lk wr
    | noState => exact lk wr
    | incomplete n =>
      have hr := h1 rfl
      exact lk (wr.append ((asg .result hr).append (Block.flatMap fun _ _ => fl _ .result hr)))
    | complete =>
      have hr := h1 rfl
      have hx := h2 rfl
      exact lk (wr.append ((((asg .result hr).append (fl _ .result hr)).append
        (asg .context hx)).append (fl _ .context hx)))
  | isFinished => exact lk rd
  | createFrameProtector finished =>
    cases finished with
    | true =>
      have hr := h3 rfl
      refine (lk rd).append ((fl _ .result hr).append ?_)
      exact fun k rest h => ⟨hr, h.mono _⟩
    | false => exact (lk rd).append .nil
  | getContext finished =>
    cases finished with
    | true =>
      have hx := h4 rfl
      exact (lk rd).append fun k rest h => ⟨hx, h.mono _⟩
    | false => exact (lk rd).append .nil

/-- The calls that a thread has made before run through. -/
theorem proxy_solo (u : T) (cs : List ProxyCall) :
    ∃ k, Solo (S := proxyShape) [] .nothing (proxyThread cs) [] k :=
  Block.solo (R := owned u) (t := u) (fun _ _ => id) (Block.flatMap fun c _ => ownedCall c)

theorem proxyThread_at (a : List ProxyCall) (c : ProxyCall) (e : List ProxyCall) :
    proxyThread (a ++ c :: e) = proxyThread a ++ (c.actions ++ proxyThread e) := by
  simp [proxyThread]

/-- The point at which a call touches something that the other one touches too. -/
theorem proxy_point {calls : T → List ProxyCall} {t : T} {c : ProxyCall} (hc : c ∈ calls t)
    {pre post : List ProxyAct} {x : ProxyAct} (ha : c.actions = pre ++ x :: post) {held k}
    (hs : ∀ k0, Solo (S := proxyShape) [] k0 pre held k) :
    ∃ as ar, proxyThread (calls t) = as ++ x :: ar ∧
      Solo (S := proxyShape) [] .nothing as held k := by
  obtain ⟨a, e, hae⟩ := List.append_of_mem hc
  obtain ⟨k0, h0⟩ := proxy_solo t a
  refine ⟨proxyThread a ++ pre, post ++ proxyThread e, ?_, h0.append (hs k0)⟩
  rw [hae, proxyThread_at, ha]
  simp

theorem clash_race {calls : T → List ProxyCall} {t u : T} (htu : t ≠ u) {c d : ProxyCall}
    (hc : c ∈ calls t) (hd : d ∈ calls u) (h : clashes c d = true) :
    ∃ x y, x.plain = true ∧ ∃ schedule cf,
      run (.init fun t => proxyThread (calls t)) schedule = .ok cf ∧
      Race (S := proxyShape) cf t x u y := by
  -- the places
  have create : ∀ v, ProxyCall.createFrameProtector true ∈ calls v →
      (∃ as ar, proxyThread (calls v) = as ++ .load () .result :: ar ∧
        ∃ k, Solo (S := proxyShape) [] .nothing as [] k) ∧
      (∃ as ar, proxyThread (calls v) = as ++ .write .channel :: ar ∧
        ∃ k, Solo (S := proxyShape) [] .nothing as [] k) := by
    intro v hv
    obtain ⟨as, ar, h1, h2⟩ := proxy_point hv
      (pre := [.acquire (), .read .state, .release ()])
      (x := .load () .result) (post := [.deref () .result .mutable, .write .channel]) rfl
      (held := []) (k := .nothing) (fun k0 => ⟨List.not_mem_nil, rfl, rfl⟩)
    obtain ⟨bs, br, h3, h4⟩ := proxy_point hv
      (pre := [.acquire (), .read .state, .release (), .load () .result,
        .deref () .result .mutable])
      (x := .write .channel) (post := []) rfl
      (held := []) (k := .current ProxyPtr.result) (fun k0 => ⟨List.not_mem_nil, rfl, rfl, rfl⟩)
    exact ⟨⟨as, ar, h1, _, h2⟩, bs, br, h3, _, h4⟩
  have ctx : ∀ v, ProxyCall.getContext true ∈ calls v →
      ∃ as ar, proxyThread (calls v) = as ++ .install .context :: ar ∧
        ∃ k, Solo (S := proxyShape) [] .nothing as [] k := by
    intro v hv
    obtain ⟨as, ar, h1, h2⟩ := proxy_point hv
      (pre := [.acquire (), .read .state, .release ()])
      (x := .install .context) (post := []) rfl
      (held := []) (k := .nothing) (fun k0 => ⟨List.not_mem_nil, rfl, rfl⟩)
    exact ⟨as, ar, h1, _, h2⟩
  have full : ∀ v, ProxyCall.forPeer .complete ∈ calls v →
      (∃ as ar, proxyThread (calls v) = as ++ .install .result :: ar ∧
        ∃ held k, Solo (S := proxyShape) [] .nothing as held k) ∧
      (∃ as ar, proxyThread (calls v) = as ++ .install .context :: ar ∧
        ∃ held k, Solo (S := proxyShape) [] .nothing as held k) := by
    intro v hv
    obtain ⟨as, ar, h1, h2⟩ := proxy_point hv
      (pre := [.acquire (), .write .state])
      (x := .install .result) (post := [.free .result, .load () .result,
        .deref () .result .mutable, .install .context, .free .context, .load () .context,
        .deref () .context .mutable, .release ()]) rfl
      (held := [()]) (k := .nothing) (fun k0 => ⟨List.not_mem_nil, rfl, rfl⟩)
    obtain ⟨bs, br, h3, h4⟩ := proxy_point hv
      (pre := [.acquire (), .write .state, .install .result, .free .result, .load () .result,
        .deref () .result .mutable])
      (x := .install .context) (post := [.free .context, .load () .context,
        .deref () .context .mutable, .release ()]) rfl
      (held := [()]) (k := .current ProxyPtr.result) (fun k0 => ⟨List.not_mem_nil, rfl, rfl, rfl, rfl⟩)
    exact ⟨⟨as, ar, h1, _, _, h2⟩, bs, br, h3, _, _, h4⟩
  have part : ∀ v n, ProxyCall.forPeer (.incomplete n) ∈ calls v →
      ∃ as ar, proxyThread (calls v) = as ++ .install .result :: ar ∧
        ∃ held k, Solo (S := proxyShape) [] .nothing as held k := by
    intro v n hv
    obtain ⟨as, ar, h1, h2⟩ := proxy_point hv
      (pre := [.acquire (), .write .state])
      (x := .install .result) (post := .free .result ::
        ((List.replicate n ()).flatMap fun _ => fill .result) ++ [.release ()]) rfl
      (held := [()]) (k := .nothing) (fun k0 => ⟨List.not_mem_nil, rfl, rfl⟩)
    exact ⟨as, ar, h1, _, _, h2⟩
  unfold clashes at h
  split at h
  · obtain ⟨_, as, ar, h1, k, h2⟩ := create t hc
    obtain ⟨_, bs, br, h3, k', h4⟩ := create u hd
    exact ⟨_, _, rfl, both_race htu h1 h3 h2 h4 fun c =>
      ⟨.var .channel, true, true, by simp [touches], by simp [touches], rfl⟩⟩
  · obtain ⟨⟨as, ar, h1, k, h2⟩, _⟩ := create t hc
    obtain ⟨bs, br, h3, held, k', h4⟩ := part u _ hd
    exact ⟨_, _, rfl, both_race htu h1 h3 h2 h4 fun c =>
      ⟨.ptr .result, false, true, by simp [touches], by simp [touches], rfl⟩⟩
  · obtain ⟨⟨as, ar, h1, k, h2⟩, _⟩ := create t hc
    obtain ⟨⟨bs, br, h3, held, k', h4⟩, _⟩ := full u hd
    exact ⟨_, _, rfl, both_race htu h1 h3 h2 h4 fun c =>
      ⟨.ptr .result, false, true, by simp [touches], by simp [touches], rfl⟩⟩
  · obtain ⟨as, ar, h1, k, h2⟩ := ctx t hc
    obtain ⟨bs, br, h3, k', h4⟩ := ctx u hd
    exact ⟨_, _, rfl, both_race htu h1 h3 h2 h4 fun c =>
      ⟨.ptr .context, true, true, by simp [touches], by simp [touches], rfl⟩⟩
  · obtain ⟨as, ar, h1, k, h2⟩ := ctx t hc
    obtain ⟨_, bs, br, h3, held, k', h4⟩ := full u hd
    exact ⟨_, _, rfl, both_race htu h1 h3 h2 h4 fun c =>
      ⟨.ptr .context, true, true, by simp [touches], by simp [touches], rfl⟩⟩
  · cases h

/-- The two threads meet where one reads the pointer to the result and the other replaces it. -/
theorem replaced {calls : T → List ProxyCall} {t u : T} (htu : t ≠ u) {d : ProxyCall}
    (hc : .createFrameProtector true ∈ calls t) (hd : d ∈ calls u) (hs : d.stores = true) :
    ∃ schedule cf, run (.init fun t => proxyThread (calls t)) schedule = .ok cf ∧
      (∃ post, cf.prog t = .load () .result :: .deref () .result .mutable :: post) ∧
      (∃ post, cf.prog u = .install .result :: .free .result :: post) ∧
      ∀ p n, cf.freed (p, n) = true → n < cf.ver p := by
  obtain ⟨a, e, hae⟩ := List.append_of_mem hc
  obtain ⟨k0, h0⟩ := proxy_solo t a
  have ha : proxyThread (calls t) = (proxyThread a ++ [.acquire (), .read .state, .release ()]) ++
      (.load () .result :: .deref () .result .mutable :: .write .channel :: proxyThread e) := by
    rw [hae, proxyThread_at]
    simp [ProxyCall.actions, fill]
  have sa := Solo.append (S := proxyShape) h0 (bs := [.acquire (), .read .state, .release ()]) (held2 := [])
    (k2 := .nothing) ⟨List.not_mem_nil, rfl, rfl⟩
  obtain ⟨b, e', hbe⟩ := List.append_of_mem hd
  obtain ⟨k1, h1⟩ := proxy_solo u b
  have sb := Solo.append (S := proxyShape) h1 (bs := [.acquire (), .write .state]) (held2 := [()])
    (k2 := .nothing) ⟨List.not_mem_nil, rfl, rfl⟩
  have hb : ∃ post, proxyThread (calls u) = (proxyThread b ++ [.acquire (), .write .state]) ++
      (.install .result :: .free .result :: post) := by
    rw [hbe, proxyThread_at]
    cases d with
    | forPeer o =>
      cases o with
      | incomplete n => exact ⟨((List.replicate n ()).flatMap fun _ => fill .result) ++
          (.release () :: proxyThread e'), by simp [ProxyCall.actions, assign]⟩
      | complete => exact ⟨fill .result ++ (assign .context ++ (fill .context ++
          (.release () :: proxyThread e'))), by simp [ProxyCall.actions, assign]⟩
      | _ => cases hs
    | _ => cases hs
  obtain ⟨post, hb⟩ := hb
  obtain ⟨sch, cf, g1, g2, g3, g4, _⟩ :=
    both_reach (prog := fun t => proxyThread (calls t)) htu ha hb sa sb
  exact ⟨sch, cf, g1, ⟨_, g2⟩, ⟨_, g3⟩, g4⟩

/-! ### The frame protector -/

/-- In the thread that unprotects, all calls follow the rules for it. -/
theorem call_block (u : T) (c : Call) : Block (updating u) u [] c.actions := by
  have F := updating_fits u u
  have hi : ∀ held', Mutex.half .inbound ∈ held' →
      (updating u).mayInstall Half.inbound u held' := fun held' hm => ⟨rfl, rfl, hm⟩
  cases c with
  | unprotect rs => exact F.unprotect rfl fun _ _ _ => hi
  | unprotectInto r => exact F.unprotectInto rfl fun _ => hi
  | protect rs => exact F.protect rfl
  | protectInto rs => exact F.protect rfl
  | size => exact F.protect rfl

omit [DecidableEq T] in
theorem updating_own (u : T) : ∀ site p, ¬ (updating u).exempt u site p := fun _ _ h => h.2.2 rfl

theorem thread_at (a : List Call) (c : Call) (e : List Call) :
    thread (a ++ c :: e) = thread a ++ (c.actions ++ thread e) := by
  simp [thread]

/-- What happens before the key is replaced. -/
def beforeInstall : List Act :=
  .read .crypter :: overhead ++ overhead ++ crypt .inbound true ++ [.write .crypter] ++
    [.acquire (.half .inbound), .write (.half .inbound)]

theorem handshake_actions : crypterUnprotect (.handshake (some true)) =
    beforeInstall ++ .install .inbound :: .free .inbound ::
      [.write (.half .inbound), .release (.half .inbound), .write .crypter] := rfl

theorem beforeInstall_solo {held : List Mutex} (h : Mutex.half .inbound ∉ held)
    (k : Known frameShape) :
    ∃ k', Solo (S := frameShape) held k beforeInstall (.half .inbound :: held) k' := by
  refine ⟨.nothing, ?_⟩
  have he : (Mutex.half .inbound :: held).erase (.half .inbound) = held := List.erase_cons_head ..
  refine ⟨rfl, rfl, h, rfl, rfl, ?_⟩
  show Solo (S := frameShape) ((Mutex.half .inbound :: held).erase (.half .inbound)) _ _ _ _
  rw [he]
  exact ⟨h, rfl, rfl⟩

/-- The point at which a thread that receives a key update replaces the key. -/
theorem install_point {cs : List Call} {c : Call} (u : T) (hc : c ∈ cs) (hu : c.updates = true) :
    ∃ pre post, thread cs = pre ++ .install .inbound :: .free .inbound :: post ∧
      ∃ held k, Solo (S := frameShape) [] .nothing pre held k ∧ Mutex.protectMu ∉ held := by
  obtain ⟨a, e, rfl⟩ := List.append_of_mem hc
  obtain ⟨ka, ha⟩ := Block.solo (updating_own u)
    (Block.flatMap (R := updating u) (t := u) (held := []) (l := a) fun c _ => call_block u c)
  rw [thread_at]
  have ov : ∀ held k, Solo (S := frameShape) held k overhead held (.current Half.inbound) :=
    fun held k => ⟨rfl, rfl, rfl⟩
  cases c with
  | unprotectInto r =>
    simp only [Call.updates, beq_iff_eq] at hu
    subst hu
    obtain ⟨k', h'⟩ := beforeInstall_solo (held := []) List.not_mem_nil (.current Half.inbound)
    refine ⟨thread a ++ (overhead ++ beforeInstall),
      [.write (.half .inbound), .release (.half .inbound), .write .crypter] ++ thread e, ?_, _, _,
      Solo.append ha ((ov _ _).append h'),
      show Mutex.protectMu ∉ ([.half .inbound] : List Mutex) by simp⟩
    simp only [Call.actions, handshake_actions]
    simp
  | unprotect rs =>
    simp only [Call.updates, List.contains_eq_mem, decide_eq_true_eq] at hu
    obtain ⟨r1, r2, rfl⟩ := List.append_of_mem hu
    have hb : Block (updating u) u [.unprotectMu]
        (r1.flatMap fun r => overhead ++ crypterUnprotect r) :=
      Block.flatMap fun r _ => ((updating_fits u u).overhead _).append
        ((updating_fits u u).unprotectOne outer_u rfl r fun _ held' hm => ⟨rfl, rfl, hm⟩)
    obtain ⟨held1, k1, h1, h2⟩ := Follows.solo (updating_own u)
      (hb .nothing [.release .unprotectMu] ⟨List.mem_cons_self, show ([Mutex.unprotectMu] : List Mutex).erase .unprotectMu = [] by simp⟩)
    have hheld : held1 = [Mutex.unprotectMu] := by
      obtain ⟨h2, h3⟩ := h2
      have h3 : held1.erase Mutex.unprotectMu = [] := h3
      have := (List.perm_cons_erase h2).trans (by rw [h3])
      exact List.perm_singleton.1 this
    subst hheld
    obtain ⟨k', h'⟩ := beforeInstall_solo (held := [.unprotectMu]) (by simp)
      (.current Half.inbound)
    have hlk : Solo (S := frameShape) [] (.current Half.inbound)
        (.acquire .unprotectMu :: (r1.flatMap fun r => overhead ++ crypterUnprotect r))
        [.unprotectMu] k1 := ⟨List.not_mem_nil, h1⟩
    refine ⟨thread a ++ (overhead ++ (.acquire .unprotectMu ::
      (r1.flatMap fun r => overhead ++ crypterUnprotect r) ++ (overhead ++ beforeInstall))),
      [.write (.half .inbound), .release (.half .inbound), .write .crypter] ++
        (r2.flatMap (fun r => overhead ++ crypterUnprotect r) ++ overhead ++
          [.release .unprotectMu]) ++ thread e, ?_, _, _, Solo.append ha ((ov _ _).append (hlk.append ((ov _ _).append h'))),
      show Mutex.protectMu ∉ ([.half .inbound, .unprotectMu] : List Mutex) by simp⟩
    simp only [Call.actions, List.flatMap_append, List.flatMap_cons, handshake_actions]
    simp
  | protect rs => cases hu
  | protectInto rs => cases hu
  | size => cases hu

/-- The point at which a thread first asks for the overhead: it holds at most one lock, and has
taken no other. -/
theorem overhead_point {cs : List Call} {c : Call} (hc : c ∈ cs) (ha : asksOverhead c = true) :
    ∃ pre post, thread cs = pre ++ .load .recordOverhead .inbound ::
        .deref .recordOverhead .inbound .fixed :: post ∧
      ∃ held k, Solo (S := frameShape) [] .nothing pre held k ∧
        ∀ l ∈ locksOf pre, l = Mutex.protectMu := by
  induction cs with
  | nil => cases hc
  | cons d ds ih =>
    have hcons : thread (d :: ds) = d.actions ++ thread ds := by simp [thread]
    by_cases hd : asksOverhead d = true
    · -- at once
      have now : ∀ post, thread (d :: ds) = overhead ++ post → ∃ pre post, thread (d :: ds) =
          pre ++ .load .recordOverhead .inbound ::
            .deref .recordOverhead .inbound .fixed :: post ∧
          ∃ held k, Solo (S := frameShape) [] .nothing pre held k ∧
            ∀ l ∈ locksOf pre, l = Mutex.protectMu :=
        fun post h => ⟨[], post, h, [], .nothing, ⟨rfl, rfl⟩, fun l hl => by cases hl⟩
      cases d with
      | protect rs => exact now _ (by rw [hcons, Call.actions, List.append_assoc])
      | unprotect rs => exact now _ (by rw [hcons, Call.actions, List.append_assoc])
      | unprotectInto r => exact now _ (by rw [hcons, Call.actions, List.append_assoc])
      | size => exact now _ (by rw [hcons, Call.actions])
      | protectInto rs =>
        -- after the records that are too long
        have key : ∀ rs : List Sealing, rs.any (· ≠ .tooLong) = true →
            ∃ post, rs.flatMap protectOne = overhead ++ post := by
          intro rs
          induction rs with
          | nil => intro h; cases h
          | cons r rs ih =>
            intro h
            by_cases hr : r = .tooLong
            · subst hr
              simp only [List.any_cons, ne_eq, not_true_eq_false, decide_false, Bool.false_or] at h
              obtain ⟨post, hp⟩ := ih h
              exact ⟨post, by rw [List.flatMap_cons, hp]; rfl⟩
            · cases r with
              | tooLong => exact absurd rfl hr
              | tooSmall => exact ⟨_, by rw [List.flatMap_cons]; rfl⟩
              | badType => exact ⟨_, by rw [List.flatMap_cons]; rfl⟩
              | tried a b => exact ⟨_, by rw [List.flatMap_cons]; rfl⟩
        obtain ⟨post, hp⟩ := key rs hd
        refine ⟨[.acquire .protectMu], post ++ ([.release .protectMu] ++ thread ds), ?_,
          [.protectMu], .nothing, ⟨List.not_mem_nil, rfl, rfl⟩, fun l hl => List.mem_singleton.1 hl⟩
        rw [hcons, Call.actions, hp]
        simp [overhead]
    · -- this call does nothing of interest
      have hm : c ∈ ds := by
        rcases List.mem_cons.1 hc with rfl | h
        · exact absurd ha hd
        · exact h
      obtain ⟨pre, post, h1, held, k, h2, h3⟩ := ih hm
      cases d with
      | protectInto rs =>
        have key : ∀ rs : List Sealing, ¬ rs.any (· ≠ .tooLong) = true →
            rs.flatMap protectOne = [] := by
          intro rs
          induction rs with
          | nil => intro _; rfl
          | cons r rs ih =>
            intro h
            simp only [List.any_cons, Bool.or_eq_true, not_or, decide_eq_true_eq, ne_eq,
              Decidable.not_not] at h
            obtain ⟨rfl, h⟩ := h
            rw [List.flatMap_cons, ih (by simpa using h)]
            rfl
        refine ⟨.acquire .protectMu :: .release .protectMu :: pre, post, ?_, held, k,
          ⟨List.not_mem_nil, ?_⟩, ?_⟩
        · rw [hcons, Call.actions, key rs hd, h1]
          simp
        · show Solo (S := frameShape) ([Mutex.protectMu].erase .protectMu) _ _ _ _
          exact h2
        · intro l hl
          rcases List.mem_cons.1 (show l ∈ Mutex.protectMu :: locksOf pre from hl) with rfl | hl
          · rfl
          · exact h3 l hl
      | protect rs => exact absurd rfl hd
      | unprotect rs => exact absurd rfl hd
      | unprotectInto r => exact absurd rfl hd
      | size => exact absurd rfl hd

/-- The two threads meet there. -/
theorem meet {calls : T → List Call} {t u : T} (htu : t ≠ u) {c d : Call} (hc : c ∈ calls t)
    (ha : asksOverhead c = true) (hd : d ∈ calls u) (hu : d.updates = true) :
    ∃ schedule cf, run (.init fun t => thread (calls t)) schedule = .ok cf ∧
      (∃ post, cf.prog t = .load .recordOverhead .inbound ::
        .deref .recordOverhead .inbound .fixed :: post) ∧
      (∃ post, cf.prog u = .install .inbound :: .free .inbound :: post) ∧
      ∀ p n, cf.freed (p, n) = true → n < cf.ver p := by
  obtain ⟨bs, br, hb, held, k, sb, hnot⟩ := install_point u hd hu
  obtain ⟨as, ar, hta, held', k', sa, hlk⟩ := overhead_point hc ha
  obtain ⟨c1, g1, g2, g3, g4, g5, g6⟩ := solo_run u bs _ (.init fun t => thread (calls t)) sb hb
    trivial (fun p n h => by simp [Config.init] at h) (fun l _ => .inl rfl)
  obtain ⟨c2, k1, k2, k3, k4, k5, _⟩ := solo_run t as _ c1 sa
    (by rw [g2, upd_other _ _ htu]; exact hta) trivial g4
    (fun l hl => .inl ((g6 l (.inl rfl)).resolve_right (by rw [hlk l hl]; exact hnot)))
  refine ⟨_, c2, by rw [run_append g1, k1], ⟨ar, ?_⟩, ⟨br, ?_⟩, k4⟩
  · rw [k2, upd_same]
  · rw [k2, upd_other _ _ htu.symm, g2, upd_same]

end S2A.Race
