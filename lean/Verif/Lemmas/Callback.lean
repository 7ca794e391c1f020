import Verif.Lemmas.Locks
import Verif.Spec.Callback
/-
Steps that take locks in ascending order, whatever the functions of the user do.
-/
namespace S2A.Race
open Machine

section
variable {S : Shape} {K C : Type}

/-- Like `Ordered`, for steps that begin with the locks `held` and end with the locks `f`:
functions of the user are called only with locks that permit it. -/
def FitsLocks (rank : S.Lock → Nat) (permits : List S.Lock → K → Prop) (f : List S.Lock) :
    List S.Lock → List (Step S K) → Prop
  | held, [] => held = f
  | held, .act (.acquire l) :: ss =>
    l ∉ held ∧ (∀ l' ∈ held, rank l' < rank l) ∧ FitsLocks rank permits f (l :: held) ss
  | held, .act (.release l) :: ss => l ∈ held ∧ FitsLocks rank permits f (held.erase l) ss
  | held, .act _ :: ss => FitsLocks rank permits f held ss
  | held, .callback k :: ss => permits held k ∧ FitsLocks rank permits f held ss

theorem unfolds_ordered {rank : S.Lock → Nat} {permits : List S.Lock → K → Prop}
    {body : C → List (Step S K)} {may : K → C → Prop}
    (hc : ∀ held k c, permits held k → may k c → FitsLocks rank permits held held (body c))
    {steps : List (Step S K)} {as : List (Action S)} (h : Unfolds body may steps as) :
    ∀ {f held : List S.Lock} {rest : List (Action S)}, FitsLocks rank permits f held steps →
      Ordered rank f rest → Ordered rank held (as ++ rest) := by
  induction h with
  | nil => intro f held rest h1 h2; cases h1; exact h2
  | act h ih =>
    rename_i a steps as
    intro f held rest h1 h2
    cases a with
    | acquire l => exact ⟨h1.1, h1.2.1, ih h1.2.2 h2⟩
    | release l => exact ⟨h1.1, ih h1.2 h2⟩
    | _ => exact ih (by exact h1) h2
  | leave h ih => intro f held rest h1 h2; exact ih h1.2 h2
  | nested hm hi h ih1 ih2 =>
    intro f held rest h1 h2
    rw [List.append_assoc]
    exact ih1 (hc _ _ _ h1.1 hm) (ih2 h1 h2)

/-- A block of steps that leaves the locks as it found them. -/
def FitsBlock (rank : S.Lock → Nat) (permits : List S.Lock → K → Prop) (held : List S.Lock)
    (ss : List (Step S K)) : Prop :=
  ∀ f rest, FitsLocks rank permits f held rest → FitsLocks rank permits f held (ss ++ rest)

variable {rank : S.Lock → Nat} {permits : List S.Lock → K → Prop} {held : List S.Lock}

theorem FitsBlock.nil : FitsBlock rank permits held [] := fun _ _ h => h

theorem FitsBlock.append {as bs : List (Step S K)} (ha : FitsBlock rank permits held as)
    (hb : FitsBlock rank permits held bs) : FitsBlock rank permits held (as ++ bs) := by
  intro f rest h
  rw [List.append_assoc]
  exact ha _ _ (hb _ _ h)

theorem FitsBlock.flatMap {α : Type} {l : List α} {g : α → List (Step S K)}
    (h : ∀ x ∈ l, FitsBlock rank permits held (g x)) :
    FitsBlock rank permits held (l.flatMap g) := by
  induction l with
  | nil => exact .nil
  | cons x l ih =>
    rw [List.flatMap_cons]
    exact (h x (by simp)).append (ih fun y hy => h y (by simp [hy]))

theorem FitsBlock.locked {as : List (Step S K)} {l : S.Lock} (hl : l ∉ held)
    (hr : ∀ l' ∈ held, rank l' < rank l) (h : FitsBlock rank permits (l :: held) as) :
    FitsBlock rank permits held (.act (.acquire l) :: as ++ [.act (.release l)]) := by
  intro f rest hrest
  refine ⟨hl, hr, ?_⟩
  show FitsLocks rank permits f (l :: held) ((as ++ [.act (.release l)]) ++ rest)
  rw [List.append_assoc]
  exact h _ _ ⟨List.mem_cons_self, by simpa using hrest⟩

theorem FitsBlock.callback {k : K} (h : permits held k) :
    FitsBlock rank permits held [.callback k] := fun _ _ hr => ⟨h, hr⟩

theorem FitsBlock.cons_callback {k : K} {ss : List (Step S K)} (h : permits held k)
    (hs : FitsBlock rank permits held ss) : FitsBlock rank permits held (.callback k :: ss) :=
  (FitsBlock.callback h).append hs

theorem FitsBlock.fits {ss : List (Step S K)} (h : FitsBlock rank permits held ss) :
    FitsLocks rank permits held held ss := by
  have := h held [] rfl
  rwa [List.append_nil] at this

theorem Unfolds.quiet {body : C → List (Step S K)} {may : K → C → Prop}
    (as : List (Action S)) {ss : List (Step S K)} {bs : List (Action S)}
    (h : Unfolds body may ss bs) : Unfolds body may (acts as ++ ss) (as ++ bs) := by
  induction as with
  | nil => exact h
  | cons a as ih => exact .act ih

end

/-! ### The frame protector -/

/-- `Unprotect` before `Protect` before the half connections. -/
def lockRank : Mutex → Nat
  | .unprotectMu => 0
  | .protectMu => 1
  | .half _ => 2

/-- Calls `Protect`. -/
def Method.seals : Method → Prop
  | .protect => True
  | .protectInto => True
  | _ => False

/-- A function of the user may be called with these locks: no half connection is locked, and with
`protect_mu_` held it does not call `Protect`, nor does it call a method that destroys the channel
factory if that calls `Protect`. -/
def Permits (may : Callback → Method → Prop) (held : List Mutex) (k : Callback) : Prop :=
  (∀ h, Mutex.half h ∉ held) ∧
  (Mutex.protectMu ∈ held → (∀ m, m.seals → ¬ may k m) ∧
    (may k .unprotectInto → ∀ m, m.seals → ¬ may .channelFactory m))

variable {may : Callback → Method → Prop} {held : List Mutex}

theorem overhead_fits : FitsBlock (S := frameShape) lockRank (Permits may) held (acts overhead) :=
  fun _ _ h => h

theorem crypt_fits (ho : ∀ h, Mutex.half h ∉ held) (h : Half) (usable : Bool) :
    FitsBlock (S := frameShape) lockRank (Permits may) held (acts (crypt h usable)) := by
  have hr : ∀ l ∈ held, lockRank l < lockRank (.half h) := by
    intro l hl
    cases l with
    | half h' => exact absurd hl (ho h')
    | protectMu => exact Nat.lt_succ_self 1
    | unprotectMu => exact Nat.zero_lt_two
  cases usable
  · exact FitsBlock.locked (S := frameShape) (ho h) hr
      (as := acts ([.load .aead h, .read (.half h)] : List Act)) fun _ _ h => h
  · exact FitsBlock.locked (S := frameShape) (ho h) hr
      (as := acts ([.load .aead h, .read (.half h), .write (.half h), .load .aead h,
        .deref .aead h .fixed, .deref .aead h .mutable] : List Act)) fun _ _ h => h

theorem updateKey_fits (ho : ∀ h, Mutex.half h ∉ held) (h : Half) (ok : Bool) :
    FitsBlock (S := frameShape) lockRank (Permits may) held (acts (updateKey h ok)) := by
  have hr : ∀ l ∈ held, lockRank l < lockRank (.half h) := by
    intro l hl
    cases l with
    | half h' => exact absurd hl (ho h')
    | protectMu => exact Nat.lt_succ_self 1
    | unprotectMu => exact Nat.zero_lt_two
  cases ok
  · exact FitsBlock.locked (S := frameShape) (ho h) hr
      (as := acts ([.write (.half h), .write (.half h)] : List Act)) fun _ _ h => h
  · exact FitsBlock.locked (S := frameShape) (ho h) hr
      (as := acts ([.write (.half h), .install h, .free h, .write (.half h)] : List Act)) fun _ _ h => h

theorem acts_append {S : Shape} {K : Type} (as bs : List (Action S)) :
    (acts (as ++ bs) : List (Step S K)) = acts as ++ acts bs := List.map_append

theorem crypterProtect_fits (ho : ∀ h, Mutex.half h ∉ held) (r : Sealing) :
    FitsBlock (S := frameShape) lockRank (Permits may) held (acts (crypterProtect r)) := by
  cases r with
  | tooLong => exact .nil
  | tooSmall => exact fun _ _ h => h
  | badType => exact fun _ _ h => h
  | tried usable ok =>
    unfold crypterProtect
    rw [acts_append]
    exact FitsBlock.append (fun _ _ h => h) (crypt_fits ho _ _)

theorem protectOne_fits (ho : ∀ h, Mutex.half h ∉ held) (hl : Permits may held .logger)
    (hd : Permits may held .destroy) (r : Sealing) :
    FitsBlock (S := frameShape) lockRank (Permits may) held (protectOneSteps r) := by
  have fail : ∀ r, FitsBlock (S := frameShape) lockRank (Permits may) held
      (acts (crypterProtect r) ++ [.callback .logger] ++
        [.callback .logger, .callback .destroy]) := fun r =>
    ((crypterProtect_fits ho r).append (.callback hl)).append
      (.cons_callback hl (.callback hd))
  cases r with
  | tried usable ok =>
    cases usable <;> cases ok
    · exact fail _
    · exact fail _
    · exact fail _
    · exact (crypterProtect_fits ho (.tried true true)).append overhead_fits
  | tooLong => exact fail _
  | tooSmall => exact fail _
  | badType => exact fail _

theorem decrypt_fits (ho : ∀ h, Mutex.half h ∉ held) (usable : Bool) :
    FitsBlock (S := frameShape) lockRank (Permits may) held
      (acts ((.read .crypter : Act) :: overhead ++ overhead ++ crypt .inbound usable)) := by
  rw [acts_append]
  exact FitsBlock.append (fun _ _ h => h) (crypt_fits ho _ _)

theorem crypterUnprotect_fits (ho : ∀ h, Mutex.half h ∉ held) (hl : Permits may held .logger)
    (hf : Permits may held .channelFactory) (r : Opening) :
    FitsBlock (S := frameShape) lockRank (Permits may) held (crypterUnprotectSteps r) := by
  have log := FitsBlock.callback (S := frameShape) (rank := lockRank) hl
  cases r with
  | misframed => exact .nil
  | closed => exact FitsBlock.append (fun _ _ h => h) log
  | tooShort => exact FitsBlock.append (fun _ _ h => h) log
  | tooLong => exact FitsBlock.append (fun _ _ h => h) log
  | badHeader => exact FitsBlock.append (fun _ _ h => h) log
  | refused usable => exact (decrypt_fits ho usable).append log
  | invalid => exact (decrypt_fits ho true).append log
  | alert cn =>
    refine (decrypt_fits ho true).append (.cons_callback hl ?_)
    cases cn <;> exact fun _ _ h => h
  | data sends =>
    unfold crypterUnprotectSteps
    rw [acts_append]
    refine ((decrypt_fits ho true).append (bs := acts ([.read .crypter] : List Act))
      fun _ _ h => h).append (.cons_callback hl ?_)
    cases sends
    · exact .nil
    · exact .cons_callback hf (ss := acts ([.write .crypter] : List Act)) fun _ _ h => h
  | handshake update =>
    unfold crypterUnprotectSteps
    rw [acts_append, acts_append]
    refine (((decrypt_fits ho true).append (bs := acts ([.write .crypter] : List Act))
      fun _ _ h => h).append ?_).append (.cons_callback hl (.cons_callback hf
        (ss := acts ([.write .crypter] : List Act)) fun _ _ h => h))
    cases update with
    | none => exact .nil
    | some ok => exact updateKey_fits ho _ ok

theorem unprotectOne_fits (ho : ∀ h, Mutex.half h ∉ held)
    (hp : ∀ k, Permits may held k) (r : Opening) :
    FitsBlock (S := frameShape) lockRank (Permits may) held (unprotectOneSteps r) := by
  have go : ∀ r, FitsBlock (S := frameShape) lockRank (Permits may) held
      (acts overhead ++ .callback .allocator :: crypterUnprotectSteps r ++
        [.callback .logger, .callback .destroy]) := fun r =>
    FitsBlock.append
      (overhead_fits.append (.cons_callback (hp _) (crypterUnprotect_fits ho (hp _) (hp _) r)))
      (.cons_callback (hp _) (.callback (hp _)))
  cases r with
  | misframed => exact overhead_fits.append (.callback (hp _))
  | _ => exact go _

/-- A call fits if it does not take a lock that is held, and if the functions of the user that it
calls are permitted. -/
theorem call_fits (hm : Spec.Harmless may) (c : Call) (ho : ∀ h, Mutex.half h ∉ held)
    (hs : c.method.seals → Mutex.protectMu ∉ held) (hu : c.method = .unprotect → held = [])
    (hi : c.method = .unprotectInto → Mutex.protectMu ∈ held →
      ∀ m, m.seals → ¬ may .channelFactory m) :
    FitsBlock (S := frameShape) lockRank (Permits may) held c.steps := by
  have free : Mutex.protectMu ∉ held → ∀ k, Permits may held k := fun h k =>
    ⟨ho, fun h' => absurd h' h⟩
  have ld : ∀ (held : List Mutex), (∀ h, Mutex.half h ∉ held) → ∀ k, k = .logger ∨ k = .destroy →
      Permits may held k := by
    intro held ho k hk
    obtain ⟨h1, h2, h3⟩ := hm.2 k hk
    refine ⟨ho, fun _ => ⟨?_, fun hi => ?_⟩⟩
    · intro m h
      cases m <;> first | exact h.elim | assumption
    · intro m h
      cases m <;> first | exact h.elim | exact (h3 hi).1 | exact (h3 hi).2
  have inside : ∀ h, Mutex.half h ∉ Mutex.protectMu :: held := fun h hmem => by
    rcases List.mem_cons.1 hmem with h' | h'
    · cases h'
    · exact ho h h'
  have sealing : ∀ rs : List Sealing, Mutex.protectMu ∉ held →
      FitsBlock (S := frameShape) lockRank (Permits may) held
        (.act (.acquire .protectMu) :: rs.flatMap protectOneSteps ++
          [.act (.release .protectMu)]) := by
    intro rs hp
    refine FitsBlock.locked (S := frameShape) hp (fun l hl => ?_)
      (FitsBlock.flatMap fun r _ => protectOne_fits inside (ld _ inside _ (.inl rfl))
        (ld _ inside _ (.inr rfl)) r)
    cases l with
    | half h => exact absurd hl (ho h)
    | protectMu => exact absurd hl hp
    | unprotectMu => exact Nat.zero_lt_one
  cases c with
  | protect rs =>
    have hp := hs trivial
    exact (overhead_fits.append (.cons_callback (free hp _) (sealing rs hp))).append
      (.callback (free hp _))
  | protectInto rs => exact sealing rs (hs trivial)
  | unprotect rs =>
    obtain rfl := hu rfl
    have hn : ∀ h, Mutex.half h ∉ [Mutex.unprotectMu] := fun h => by simp
    have hp : ∀ k, Permits may [Mutex.unprotectMu] k := fun k =>
      ⟨hn, fun h => by simp at h⟩
    refine overhead_fits.append (FitsBlock.locked (S := frameShape) List.not_mem_nil
      (fun _ h => absurd h List.not_mem_nil) (FitsBlock.append ?_ overhead_fits))
    exact FitsBlock.flatMap fun r _ => unprotectOne_fits hn hp r
  | unprotectInto r =>
    have hl := ld held ho .logger (.inl rfl)
    refine (overhead_fits.append (crypterUnprotect_fits ho hl ?_ r)).append (.callback hl)
    exact ⟨ho, fun h => ⟨hi rfl h, fun _ => hi rfl h⟩⟩
  | size => exact overhead_fits

theorem does_ordered (hm : Spec.Harmless may) {calls : List Call} {as : List Act}
    (h : Does may calls as) : Ordered (S := frameShape) lockRank [] as := by
  have nil : ∀ h, Mutex.half h ∉ ([] : List Mutex) := fun _ => List.not_mem_nil
  have := unfolds_ordered (S := frameShape) (rank := lockRank) (permits := Permits may) (f := [])
    (held := []) (rest := []) ?_ h
    (FitsBlock.fits (FitsBlock.flatMap fun c _ => call_fits hm c nil (fun _ => List.not_mem_nil)
      (fun _ => rfl) fun _ h => absurd h List.not_mem_nil)) rfl
  · rwa [List.append_nil] at this
  · intro held k c hp hk
    refine FitsBlock.fits (call_fits hm c hp.1 (fun hs hmem => (hp.2 hmem).1 _ hs hk)
      (fun hu => ?_) fun hi hmem => (hp.2 hmem).2 (hi ▸ hk))
    exact absurd (hu ▸ hk) (hm.1 k)

/-! ### The proxy -/

theorem proxyDoes_ordered {may : ProxyCallback → ProxyMethod → Prop} (hm : ∀ k m, ¬ may k m)
    {calls : List ProxyCall} {as : List ProxyAct} (h : ProxyDoes may calls as) :
    Ordered (S := proxyShape) (fun _ => 0) [] as := by
  have one : ∀ c : ProxyCall,
      FitsBlock (S := proxyShape) (K := ProxyCallback) (fun _ => 0) (fun _ _ => True) [] c.steps := by
    have lk : ∀ {as}, FitsBlock (S := proxyShape) (K := ProxyCallback) (fun _ => 0)
        (fun _ _ => True) [()] as →
        FitsBlock (S := proxyShape) (fun _ => 0) (fun _ _ => True) []
          (.act (.acquire ()) :: as ++ [.act (.release ())]) :=
      fun h => FitsBlock.locked (S := proxyShape) List.not_mem_nil
        (fun _ h => absurd h List.not_mem_nil) h
    intro c
    cases c with
    | forS2A =>
      refine lk (as := [.act (.read .state), .callback .tokenManager, .callback .logger,
        .act (.write .state)]) fun f rest h => ⟨trivial, trivial, h⟩
    | forPeer r =>
      cases r with
      | noResult =>
        exact lk (as := .callback .logger :: acts ([.write .state] : List ProxyAct))
          fun _ _ h => ⟨trivial, h⟩
      | noState =>
        exact lk (as := .callback .logger :: acts ([.write .state] : List ProxyAct))
          fun _ _ h => ⟨trivial, h⟩
      | complete =>
        exact lk (as := .callback .logger :: acts ((.write .state : ProxyAct) ::
          (assign .result ++ fill .result ++ assign .context ++ fill .context)))
          fun _ _ h => ⟨trivial, h⟩
      | incomplete n =>
        have e : (ProxyCall.forPeer (.incomplete n)).steps =
            .act (.acquire ()) :: (.callback .logger :: (acts ((.write .state : ProxyAct) ::
              (assign .result ++ (List.replicate n ()).flatMap fun _ => fill .result)))) ++
              [.act (.release ())] := by
          simp [ProxyCall.steps, ProxyCall.actions, acts]
        rw [e]
        refine lk (.cons_callback trivial ?_)
        have e2 : ∀ l : List Unit, (acts (l.flatMap fun _ => fill .result) : List ProxyStep) =
            l.flatMap fun _ => acts (fill .result) := fun l => by
          simp [acts, List.map_flatMap]
        have e3 : (acts ((.write .state : ProxyAct) :: (assign .result ++
            (List.replicate n ()).flatMap fun _ => fill .result)) : List ProxyStep) =
            acts ((.write .state : ProxyAct) :: assign .result) ++
              (List.replicate n ()).flatMap fun _ => acts (fill .result) := by
          rw [← e2, ← acts_append]; rfl
        rw [e3]
        exact FitsBlock.append (fun _ _ h => h) (FitsBlock.flatMap fun _ _ => fun _ _ h => h)
    | isFinished => exact lk (as := acts ([.read .state] : List ProxyAct)) fun _ _ h => h
    | createFrameProtector finished =>
      cases finished
      · exact (lk (as := acts ([.read .state] : List ProxyAct)) fun _ _ h => h).append (.callback trivial)
      · exact FitsBlock.append (lk (as := acts ([.read .state] : List ProxyAct)) fun _ _ h => h)
          (bs := acts (fill .result ++ [(.write .channel : ProxyAct)])) fun _ _ h => h
    | getContext finished =>
      cases finished
      · exact (lk (as := acts ([.read .state] : List ProxyAct)) fun _ _ h => h).append (.callback trivial)
      · exact FitsBlock.append (lk (as := acts ([.read .state] : List ProxyAct)) fun _ _ h => h)
          (bs := acts ([.install .context] : List ProxyAct)) fun _ _ h => h
  have := unfolds_ordered (S := proxyShape) (rank := fun _ => 0) (permits := fun _ _ => True)
    (f := []) (held := []) (rest := []) (fun _ _ _ _ hk => absurd hk (hm _ _)) h
    (FitsBlock.fits (FitsBlock.flatMap fun c _ => one c)) rfl
  rwa [List.append_nil] at this

end S2A.Race
