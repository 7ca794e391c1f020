import Verif.Lemmas.Machine
import Verif.Model.Race
/-
The methods of the frame protector and of the proxy follow rules.
-/
namespace S2A.Race
open Machine
variable {T : Type} [DecidableEq T]

/-! ### The frame protector -/

/-- Rules under which `Protect` is fine. -/
structure Fits (R : Rules frameShape T) (t : T) : Prop where
  overhead : ∀ held, Block R t held overhead
  loadOut : ∀ held, R.mayLoad Half.outbound t held
  half : ∀ (h : Half) (held : List Mutex), Mutex.half h ∈ held →
    R.may (Member.half h) t held ∧ R.mayLoad h t held ∧ R.mayUse h t held
  rankP : ∀ h : Half, R.rank Mutex.protectMu < R.rank (Mutex.half h)
  rankU : ∀ h : Half, R.rank Mutex.unprotectMu < R.rank (Mutex.half h)

/-- The locks a thread may hold when it calls a method of a half connection. -/
def Outer (held : List Mutex) : Prop := ∀ l ∈ held, l = .protectMu ∨ l = .unprotectMu

theorem Fits.rank {R : Rules frameShape T} {t : T} (F : Fits R t) {held : List Mutex}
    (ho : Outer held) (h : Half) :
    Mutex.half h ∉ held ∧ ∀ l ∈ held, R.rank l < R.rank (Mutex.half h) := by
  refine ⟨fun hm => ?_, fun l hl => ?_⟩
  · rcases ho _ hm with h | h <;> cases h
  · rcases ho l hl with rfl | rfl
    · exact F.rankP h
    · exact F.rankU h

theorem Fits.crypt {R : Rules frameShape T} {t : T} (F : Fits R t) {held : List Mutex}
    (ho : Outer held) (h : Half) (usable : Bool) : Block R t held (crypt h usable) := by
  refine Block.locked (F.rank ho h).1 (F.rank ho h).2 ?_
  obtain ⟨h1, h2, h3⟩ := F.half h (Mutex.half h :: held) List.mem_cons_self
  intro k rest hr
  cases usable with
  | false => exact .inr ⟨h2, h1, hr.mono _⟩
  | true =>
    refine .inr ⟨h2, h1, h1, .inr ⟨h2, .inr ⟨rfl, ?_, .inr ⟨rfl, ?_, hr.mono _⟩⟩⟩⟩
    · intro h; cases h
    · intro _; exact h3

theorem Fits.tag {R : Rules frameShape T} {t : T} (F : Fits R t) (held : List Mutex) :
    Block R t held [.load .tagLength .outbound, .deref .tagLength .outbound .fixed] := by
  intro k rest hr
  exact .inr ⟨F.loadOut held, .inr ⟨rfl, (fun h => by cases h), hr.mono _⟩⟩

theorem Fits.protectOne {R : Rules frameShape T} {t : T} (F : Fits R t) {held : List Mutex}
    (ho : Outer held) (r : Sealing) : Block R t held (protectOne r) := by
  refine Block.append ?_ ?_
  · cases r with
    | tooLong => exact .nil
    | tooSmall => exact F.overhead _
    | badType => exact (F.overhead _).append (F.tag _)
    | tried usable ok => exact ((F.overhead _).append (F.tag _)).append (F.crypt ho _ _)
  · split
    · exact F.overhead _
    · exact .nil

theorem outer_nil : Outer [] := fun _ h => by cases h
theorem outer_p : Outer [.protectMu] := fun l h => .inl (by simpa using h)
theorem outer_u : Outer [.unprotectMu] := fun l h => .inr (by simpa using h)

theorem Fits.protect {R : Rules frameShape T} {t : T} (F : Fits R t) {c : Call}
    (h : c.unprotects = false) : Block R t [] c.actions := by
  have into : ∀ rs : List Sealing, Block R t []
      (.acquire .protectMu :: rs.flatMap Race.protectOne ++ [.release .protectMu]) := fun rs =>
    Block.locked List.not_mem_nil (fun _ h => absurd h List.not_mem_nil) (Block.flatMap fun r _ => F.protectOne outer_p r)
  cases c with
  | protect rs => exact (F.overhead _).append (into rs)
  | protectInto rs => exact into rs
  | unprotect rs => cases h
  | unprotectInto r => cases h
  | size => exact F.overhead _

/-- Rules under which the opening of a record is fine too. -/
theorem Fits.updateKey {R : Rules frameShape T} {t : T} (F : Fits R t) {held : List Mutex}
    (ho : Outer held) (ok : Bool)
    (hi : ok = true → ∀ held', Mutex.half .inbound ∈ held' → R.mayInstall Half.inbound t held') :
    Block R t held (updateKey .inbound ok) := by
  refine Block.locked (F.rank ho _).1 (F.rank ho _).2 ?_
  obtain ⟨h1, h2, h3⟩ := F.half .inbound (Mutex.half .inbound :: held) List.mem_cons_self
  intro k rest hr
  cases ok with
  | false => exact ⟨h1, h1, hr.mono _⟩
  | true => exact ⟨h1, hi rfl _ List.mem_cons_self, rfl, h1, hr.mono _⟩

theorem Fits.unprotectOne {R : Rules frameShape T} {t : T} (F : Fits R t) {held : List Mutex}
    (ho : Outer held) (hc : R.may Member.crypter t held) (r : Opening)
    (hi : r = .handshake (some true) → ∀ held', Mutex.half .inbound ∈ held' →
      R.mayInstall Half.inbound t held') :
    Block R t held (crypterUnprotect r) := by
  have rd : Block R t held [.read .crypter] := fun k rest hr => ⟨hc, hr.mono _⟩
  have wr : Block R t held [.write .crypter] := fun k rest hr => ⟨hc, hr.mono _⟩
  have o := F.overhead held
  have pre : Block R t held (.read .crypter :: Race.overhead ++ Race.overhead) := (rd.append o).append o
  have dec : ∀ b, Block R t held (.read .crypter :: Race.overhead ++ Race.overhead ++ Race.crypt .inbound b) :=
    fun b => pre.append (F.crypt ho _ b)
  cases r with
  | misframed => exact .nil
  | closed => exact rd
  | tooShort => exact rd.append o
  | tooLong => exact pre
  | badHeader => exact pre
  | refused usable => exact dec usable
  | invalid => exact dec true
  | alert cn =>
    refine (dec true).append ?_
    split
    · exact wr
    · exact .nil
  | data sends =>
    refine (dec true).append (rd.append (bs := (if sends then [Action.write Member.crypter] else [] : List Act)) ?_)
    split
    · exact wr
    · exact .nil
  | handshake update =>
    refine (((dec true).append wr).append ?_).append wr
    cases update with
    | none => exact .nil
    | some ok => exact F.updateKey ho ok fun h => hi (by rw [h])

theorem Fits.unprotect {R : Rules frameShape T} {t : T} (F : Fits R t) {rs : List Opening}
    (hc : R.may Member.crypter t [.unprotectMu])
    (hi : ∀ r ∈ rs, r = .handshake (some true) → ∀ held', Mutex.half .inbound ∈ held' →
      R.mayInstall Half.inbound t held') :
    Block R t [] (Call.unprotect rs).actions := by
  refine (F.overhead _).append (Block.locked List.not_mem_nil (fun _ h => absurd h List.not_mem_nil) ?_)
  refine Block.append (Block.flatMap fun r hr => ?_) (F.overhead _)
  exact (F.overhead _).append (F.unprotectOne outer_u hc r (hi r hr))

theorem Fits.unprotectInto {R : Rules frameShape T} {t : T} (F : Fits R t) {r : Opening}
    (hc : R.may Member.crypter t [])
    (hi : r = .handshake (some true) → ∀ held', Mutex.half .inbound ∈ held' →
      R.mayInstall Half.inbound t held') :
    Block R t [] (Call.unprotectInto r).actions :=
  (F.overhead _).append (F.unprotectOne outer_nil hc r hi)

/-- The order of the locks. -/
def rank : Mutex → Nat
  | .half _ => 1
  | _ => 0

/-- One thread `u` unprotects, and may update the key. -/
def updating (u : T) : Rules frameShape T where
  mayInstall p t held := p = Half.inbound ∧ t = u ∧ Mutex.half .inbound ∈ held
  mayLoad p t held := Mutex.half p ∈ held ∨ (p = Half.inbound → t = u)
  mayInstall_excl := by
    rintro p t held v held' ⟨rfl, rfl, h⟩ (h' | h')
    · exact .inr ⟨_, h, h'⟩
    · exact .inl (h' rfl).symm
  mayInstall_mayLoad := by
    rintro p t held ⟨rfl, rfl, h⟩
    exact .inl h
  may v t held := match v with
    | Member.half h => Mutex.half h ∈ held
    | Member.crypter => t = u
  may_excl := by
    intro v t held w held' h h'
    cases v with
    | half x => exact .inr ⟨_, h, h'⟩
    | crypter => exact .inl (Eq.trans h (Eq.symm h'))
  mayUse p _ held := Mutex.half p ∈ held
  mayUse_excl := fun _ _ _ _ _ h h' => .inr ⟨_, h, h'⟩
  exempt t site p := site = Place.recordOverhead ∧ p = Half.inbound ∧ t ≠ u
  rank := rank

theorem updating_fits (u t : T) : Fits (updating u) t where
  overhead held k rest hr := by
    by_cases h : t = u
    · exact .inr ⟨.inr fun _ => h, .inr ⟨rfl, (fun h => by cases h), hr.mono _⟩⟩
    · exact .inl ⟨⟨rfl, rfl, h⟩, .inl ⟨⟨rfl, rfl, h⟩, rfl, hr⟩⟩
  loadOut held := .inr fun h => by cases h
  half h held hm := ⟨hm, .inl hm, hm⟩
  rankP _ := Nat.zero_lt_one
  rankU _ := Nat.zero_lt_one

/-- No keys are updated.  `owner` is the only thread that unprotects; without it all calls of
`Unprotect` take the lock. -/
def constant (owner : Option T) : Rules frameShape T where
  mayInstall _ _ _ := False
  mayLoad _ _ _ := True
  mayInstall_excl := by intro _ _ _ _ _ h; cases h
  mayInstall_mayLoad := by intro _ _ _ h; cases h
  may v t held := match v, owner with
    | Member.half h, _ => Mutex.half h ∈ held
    | Member.crypter, some u => t = u
    | Member.crypter, none => Mutex.unprotectMu ∈ held
  may_excl := by
    intro v t held w held' h h'
    cases v with
    | half x => exact .inr ⟨_, h, h'⟩
    | crypter =>
      cases owner with
      | none => exact .inr ⟨_, h, h'⟩
      | some u => exact .inl (Eq.trans h (Eq.symm h'))
  mayUse p _ held := Mutex.half p ∈ held
  mayUse_excl := fun _ _ _ _ _ h h' => .inr ⟨_, h, h'⟩
  exempt _ _ _ := False
  rank := rank

theorem constant_fits (owner : Option T) (t : T) : Fits (constant owner) t where
  overhead held k rest hr := .inr ⟨trivial, .inr ⟨rfl, (fun h => by cases h), hr.mono _⟩⟩
  loadOut held := trivial
  half h held hm := ⟨hm, trivial, hm⟩
  rankP _ := Nat.zero_lt_one
  rankU _ := Nat.zero_lt_one

theorem rank_le (l : Mutex) : rank l ≤ 1 := by cases l <;> simp [rank]

/-! ### The proxy -/

/-- Without `CreateFrameProtector` and `GetS2AContext` everything is under the lock. -/
def locked : Rules proxyShape T where
  mayInstall _ _ held := () ∈ held
  mayLoad _ _ held := () ∈ held
  mayInstall_excl := fun _ _ _ _ _ h h' => .inr ⟨_, h, h'⟩
  mayInstall_mayLoad := fun _ _ _ h => h
  may _ _ held := () ∈ held
  may_excl := fun _ _ _ _ _ h h' => .inr ⟨_, h, h'⟩
  mayUse _ _ held := () ∈ held
  mayUse_excl := fun _ _ _ _ _ h h' => .inr ⟨_, h, h'⟩
  exempt _ _ _ := False
  rank _ := 0

/-- One thread handles results. -/
def owned (u : T) : Rules proxyShape T where
  mayInstall _ t _ := t = u
  mayLoad _ t _ := t = u
  mayInstall_excl := fun _ _ _ _ _ h h' => .inl (h.trans h'.symm)
  mayInstall_mayLoad := fun _ _ _ h => h
  may v t held := match v with
    | ProxyVar.state => () ∈ held
    | ProxyVar.channel => t = u
  may_excl := by
    intro v t held w held' h h'
    cases v with
    | state => exact .inr ⟨_, h, h'⟩
    | channel => exact .inl (Eq.trans h (Eq.symm h'))
  mayUse _ t _ := t = u
  mayUse_excl := fun _ _ _ _ _ h h' => .inl (h.trans h'.symm)
  exempt _ _ _ := False
  rank _ := 0

/-- Calls under the lock, with rules by which one may use the result then. -/
theorem lockedCall {R : Rules proxyShape T} {t : T}
    (hs : R.may ProxyVar.state t [()]) (c : ProxyCall) (hc : c.unlocked = false)
    (hr : c.stores = true → ∀ p : ProxyPtr,
      R.mayInstall p t [()] ∧ R.mayUse p t [()]) :
    Block R t [] c.actions := by
  have rd : Block R t [()] [.read .state] := fun k rest h => ⟨hs, h.mono _⟩
  have wr : Block R t [()] [.write .state] := fun k rest h => ⟨hs, h.mono _⟩
  have lk : ∀ {as}, Block R t [()] as → Block R t [] (.acquire () :: as ++ [.release ()]) :=
    fun h => Block.locked List.not_mem_nil (fun _ h => absurd h List.not_mem_nil) h
  have asg : ∀ p, R.mayInstall p t [()] → Block R t [()] (assign p) :=
    fun p h1 k rest h => ⟨h1, rfl, h⟩
  have fl : ∀ p, R.mayInstall p t [()] → R.mayUse p t [()] → Block R t [()] (fill p) :=
    fun p h1 h2 k rest h => .inr ⟨R.mayInstall_mayLoad _ _ _ h1, .inr ⟨rfl, fun _ => h2, h.mono _⟩⟩
  cases c with
  | forS2A => exact lk (rd.append wr)
  | forPeer r =>
    cases r with
    | noResult => exact lk wr
    | noState => exact lk wr
    | incomplete n =>
      obtain ⟨h1, h2⟩ := hr rfl .result
      exact lk (wr.append ((asg _ h1).append (Block.flatMap fun _ _ => fl _ h1 h2)))
    | complete =>
      obtain ⟨h1, h2⟩ := hr rfl .result
      obtain ⟨h3, h4⟩ := hr rfl .context
      exact lk (wr.append ((((asg _ h1).append (fl _ h1 h2)).append (asg _ h3)).append
        (fl _ h3 h4)))
  | isFinished => exact lk rd
  | createFrameProtector finished =>
    cases finished with
    | true => cases hc
    | false => exact (lk rd).append .nil
  | getContext finished =>
    cases finished with
    | true => cases hc
    | false => exact (lk rd).append .nil

theorem ownedCall {u : T} (c : ProxyCall) : Block (owned u) u [] c.actions := by
  by_cases hc : c.unlocked = false
  · exact lockedCall List.mem_cons_self c hc fun _ _ => ⟨rfl, rfl⟩
  · have rd : Block (owned u) u [()] [.read .state] :=
      fun k rest h => ⟨List.mem_cons_self, h.mono _⟩
    have lk : Block (owned u) u [] (.acquire () :: [.read .state] ++ [.release ()]) :=
      Block.locked List.not_mem_nil (fun _ h => absurd h List.not_mem_nil) rd
    cases c with
    | createFrameProtector finished =>
      cases finished with
      | false => exact absurd rfl hc
      | true =>
        refine lk.append (Block.append ?_ ?_)
        · exact fun k rest h => .inr ⟨rfl, .inr ⟨rfl, fun _ => rfl, h.mono _⟩⟩
        · exact fun k rest h => ⟨rfl, h.mono _⟩
    | getContext finished =>
      cases finished with
      | false => exact absurd rfl hc
      | true => exact lk.append fun k rest h => ⟨rfl, h.mono _⟩
    | forS2A => exact absurd rfl hc
    | forPeer r => exact absurd rfl hc
    | isFinished => exact absurd rfl hc

end S2A.Race
