import Verif.Lemmas.Callback
import Verif.Props.Race
/-
C103: what the functions that a user gives to a connection may do with the connection.
-/
namespace S2A.Race
open Machine

/-- Without the functions of the user, the steps are the actions of Model/Race.lean. -/
theorem steps_actions (c : Call) :
    (c.steps.filterMap Step.action?) = c.actions := by
  have ha : ∀ as : List Act, ((acts as : List FrameStep).filterMap Step.action?) = as := fun as => by
    induction as with
    | nil => rfl
    | cons a as ih => exact congrArg (a :: ·) ih
  have hp : ∀ r : Sealing, ((protectOneSteps r).filterMap Step.action?) = protectOne r := by
    intro r
    cases r with
    | tried u o => cases u <;> cases o <;> rfl
    | _ => rfl
  have hc : ∀ r : Opening, ((crypterUnprotectSteps r).filterMap Step.action?) = crypterUnprotect r := by
    intro r
    cases r with
    | refused u => cases u <;> rfl
    | alert u => cases u <;> rfl
    | data u => cases u <;> rfl
    | handshake u =>
      cases u with
      | none => rfl
      | some o => cases o <;> rfl
    | _ => rfl
  have hu : ∀ r : Opening, ((unprotectOneSteps r).filterMap Step.action?) = overhead ++ crypterUnprotect r := by
    intro r
    cases r with
    | misframed => rfl
    | _ =>
      show (acts overhead ++ _ :: crypterUnprotectSteps _ ++ _ : List FrameStep).filterMap
        Step.action? = _
      rw [List.filterMap_append, List.filterMap_append, ha]
      show overhead ++ (crypterUnprotectSteps _).filterMap Step.action? ++ [] = _
      rw [hc, List.append_nil]
  have hps : ∀ rs : List Sealing, ((rs.flatMap protectOneSteps).filterMap Step.action?) = rs.flatMap protectOne := fun rs => by
    rw [List.filterMap_flatMap]
    exact congrArg (fun f => rs.flatMap f) (funext hp)
  have hus : ∀ rs : List Opening, ((rs.flatMap unprotectOneSteps).filterMap Step.action?) =
      rs.flatMap fun r => overhead ++ crypterUnprotect r := fun rs => by
    rw [List.filterMap_flatMap]
    exact congrArg (fun f => rs.flatMap f) (funext hu)
  cases c with
  | protect rs =>
    simp only [Call.steps, Call.actions, List.filterMap_append, List.filterMap_cons,
      List.filterMap_nil, Step.action?, ha, hps, List.append_nil]
  | protectInto rs =>
    simp only [Call.steps, Call.actions, List.filterMap_append, List.filterMap_cons,
      List.filterMap_nil, Step.action?, hps, List.cons_append]
  | unprotect rs =>
    simp only [Call.steps, Call.actions, List.filterMap_append, List.filterMap_cons,
      List.filterMap_nil, Step.action?, ha, hus, List.cons_append]
  | unprotectInto r =>
    simp only [Call.steps, Call.actions, List.filterMap_append, List.filterMap_cons,
      List.filterMap_nil, Step.action?, ha, hc, List.append_nil]
  | size => rfl

/-- The same for the proxy. -/
theorem proxy_steps_actions (c : ProxyCall) : c.steps.filterMap Step.action? = c.actions := by
  have ha : ∀ as : List ProxyAct, (acts as : List ProxyStep).filterMap Step.action? = as :=
    fun as => by
      induction as with
      | nil => rfl
      | cons a as ih => exact congrArg (a :: ·) ih
  cases c with
  | forS2A => rfl
  | forPeer r => exact congrArg (Action.acquire () :: ·) (ha _)
  | isFinished => rfl
  | createFrameProtector b => cases b <;> rfl
  | getContext b => cases b <;> rfl

theorem quiet_acts {S : Shape} {K C : Type} {body : C → List (Step S K)} {may : K → C → Prop}
    (ss : List (Step S K)) :
    Unfolds body may ss (ss.filterMap Step.action?) := by
  induction ss with
  | nil => exact .nil
  | cons s ss ih =>
    cases s with
    | act a => exact .act ih
    | callback k => exact .leave ih

/-- One call, at one point: the function `k` of the user makes the call that `inner` stems from. -/
theorem unfolds_at {S : Shape} {K C : Type} {body : C → List (Step S K)} {may : K → C → Prop}
    {pre post : List (Step S K)} {k : K} {c : C} {inner : List (Action S)} (hm : may k c)
    (hi : Unfolds body may (body c) inner) :
    Unfolds body may (pre ++ .callback k :: post)
      ((pre.filterMap Step.action?) ++ (inner ++
        post.filterMap Step.action?)) := by
  induction pre with
  | nil =>
    show Unfolds body may _ (inner ++ _)
    exact .nested hm hi (.leave (quiet_acts post))
  | cons s pre ih =>
    cases s with
    | act a => exact .act ih
    | callback k => exact .leave ih

/-- A thread alone that cannot go on. -/
theorem deadlock_alone {S : Shape} {as : List (Action S)} {n : Nat} {c : Config S Unit}
    (hr : run (.init fun _ => as) (List.replicate n ()) = .ok c) (hp : c.prog () ≠ [])
    (hs : exec c () = .stuck) : ¬ NoDeadlock (T := Unit) fun _ => as := by
  intro h
  obtain ⟨u, h | ⟨a, rest, c', h1, h2, h3⟩⟩ := h _ c hr ⟨(), hp⟩
  · rw [hs] at h; cases h
  · rw [hs] at h2; cases h2

theorem does_at {may : Callback → Method → Prop} {outer c : Call} {k : Callback}
    {pre post : List FrameStep} {inner : List Act}
    (ho : outer.steps = pre ++ .callback k :: post) (hm : may k c.method)
    (hi : Unfolds Call.steps (fun k c => may k c.method) c.steps inner) :
    Does may [outer] (pre.filterMap Step.action? ++ (inner ++ post.filterMap Step.action?)) := by
  unfold Does
  rw [List.flatMap_cons, List.flatMap_nil, List.append_nil, ho]
  exact unfolds_at hm hi

theorem stuck_nested {may : Callback → Method → Prop} {outer c : Call} {k : Callback}
    {pre post : List FrameStep} {inner : List Act} {n : Nat}
    (ho : outer.steps = pre ++ .callback k :: post) (hm : may k c.method)
    (hi : Unfolds Call.steps (fun k c => may k c.method) c.steps inner)
    (hr : ∃ cfg, run (.init fun _ => ((pre.filterMap Step.action?)
      ++ (inner ++ post.filterMap Step.action?)))
        (List.replicate n ()) = .ok cfg ∧ cfg.prog () ≠ [] ∧ exec cfg () = .stuck) :
    ¬ Spec.Lively may := by
  intro h
  obtain ⟨cfg, h1, h2, h3⟩ := hr
  exact deadlock_alone h1 h2 h3 (h Unit (fun _ => [outer]) _ fun _ => does_at ho hm hi)

/-- C103, in part: exactly when the functions of a user may use the frame protector that calls
them.  Any number of threads make any calls on a frame protector, and the logger, the allocator,
`destroy` and the destructor of the channel factory may call the methods `may` on it, with any
outcomes and nested as deep as they like.  If `may` is `Harmless` then no schedule leads to a state
in which all unfinished threads wait; otherwise there are a call, outcomes and a schedule with
which a thread waits for itself.  What is missing: the claim is false for other functions. -/
theorem C103_frame_protector_partial (may : Callback → Method → Prop) :
    Spec.Lively may ↔ Spec.Harmless may := by
  constructor
  · intro h
    have quiet : ∀ c : Call,
        Unfolds Call.steps (fun k c => may k c.method) c.steps c.actions := fun c => by
      have := quiet_acts (body := Call.steps) (may := fun k c => may k c.method) c.steps
      rwa [steps_actions] at this
    refine ⟨fun k hk => ?_, fun k hk => ⟨fun hs => ?_, fun hs => ?_, fun hi => ⟨fun hs => ?_, fun hs => ?_⟩⟩⟩
    · cases k with
      | logger =>
        exact stuck_nested (outer := .unprotect [.misframed]) (c := .unprotect [])
          (k := .logger) (pre := acts overhead ++ .act (.acquire .unprotectMu) :: acts overhead)
          (n := 7) rfl hk (quiet _) ⟨_, rfl, nofun, rfl⟩ h
      | allocator =>
        exact stuck_nested (outer := .unprotect [.closed]) (c := .unprotect [])
          (k := .allocator) (pre := acts overhead ++ .act (.acquire .unprotectMu) :: acts overhead)
          (n := 7) rfl hk (quiet _) ⟨_, rfl, nofun, rfl⟩ h
      | destroy =>
        exact stuck_nested (outer := .unprotect [.closed]) (c := .unprotect [])
          (k := .destroy) (pre := acts overhead ++ .act (.acquire .unprotectMu) :: acts overhead ++
            [.callback .allocator, .act (.read .crypter), .callback .logger, .callback .logger])
          (n := 8) rfl hk (quiet _) ⟨_, rfl, nofun, rfl⟩ h
      | channelFactory =>
        exact stuck_nested (outer := .unprotect [.data true]) (c := .unprotect [])
          (k := .channelFactory)
          (pre := acts overhead ++ .act (.acquire .unprotectMu) :: acts overhead ++
            .callback .allocator :: acts ((.read .crypter : Act) :: overhead ++ overhead ++
              crypt .inbound true ++ [.read .crypter]) ++ [.callback .logger])
          (n := 21) rfl hk (quiet _) ⟨_, rfl, nofun, rfl⟩ h
    · rcases hk with rfl | rfl
      · exact stuck_nested (outer := .protectInto [.tooLong]) (c := .protect [])
          (k := .logger) (pre := [.act (.acquire .protectMu)])
          (n := 3) rfl hs (quiet _) ⟨_, rfl, nofun, rfl⟩ h
      · exact stuck_nested (outer := .protectInto [.tooLong]) (c := .protect [])
          (k := .destroy) (pre := [.act (.acquire .protectMu), .callback .logger, .callback .logger])
          (n := 3) rfl hs (quiet _) ⟨_, rfl, nofun, rfl⟩ h
    · rcases hk with rfl | rfl
      · exact stuck_nested (outer := .protectInto [.tooLong]) (c := .protectInto [])
          (k := .logger) (pre := [.act (.acquire .protectMu)])
          (n := 3) rfl hs (quiet _) ⟨_, rfl, nofun, rfl⟩ h
      · exact stuck_nested (outer := .protectInto [.tooLong]) (c := .protectInto [])
          (k := .destroy) (pre := [.act (.acquire .protectMu), .callback .logger, .callback .logger])
          (n := 3) rfl hs (quiet _) ⟨_, rfl, nofun, rfl⟩ h
    · have inner : Unfolds Call.steps (fun k c => may k c.method)
          (Call.unprotectInto (.data true)).steps _ :=
        unfolds_at (pre := acts (overhead ++ (.read .crypter : Act) :: overhead ++ overhead ++
              crypt .inbound true ++ [.read .crypter]) ++ [.callback .logger])
          (k := .channelFactory) (c := .protect []) hs (quiet _)
      rcases hk with rfl | rfl
      · exact stuck_nested (outer := .protectInto [.tooLong]) (c := .unprotectInto (.data true))
          (k := .logger) (pre := [.act (.acquire .protectMu)])
          (n := 19) rfl hi inner ⟨_, rfl, nofun, rfl⟩ h
      · exact stuck_nested (outer := .protectInto [.tooLong]) (c := .unprotectInto (.data true))
          (k := .destroy) (pre := [.act (.acquire .protectMu), .callback .logger, .callback .logger])
          (n := 19) rfl hi inner ⟨_, rfl, nofun, rfl⟩ h
    · have inner : Unfolds Call.steps (fun k c => may k c.method)
          (Call.unprotectInto (.data true)).steps _ :=
        unfolds_at (pre := acts (overhead ++ (.read .crypter : Act) :: overhead ++ overhead ++
              crypt .inbound true ++ [.read .crypter]) ++ [.callback .logger])
          (k := .channelFactory) (c := .protectInto []) hs (quiet _)
      rcases hk with rfl | rfl
      · exact stuck_nested (outer := .protectInto [.tooLong]) (c := .unprotectInto (.data true))
          (k := .logger) (pre := [.act (.acquire .protectMu)])
          (n := 19) rfl hi inner ⟨_, rfl, nofun, rfl⟩ h
      · exact stuck_nested (outer := .protectInto [.tooLong]) (c := .unprotectInto (.data true))
          (k := .destroy) (pre := [.act (.acquire .protectMu), .callback .logger, .callback .logger])
          (n := 19) rfl hi inner ⟨_, rfl, nofun, rfl⟩ h
  · intro hm T _ calls prog hd
    exact noDeadlock_of_ordered (S := frameShape) (rank := lockRank) (B := 2)
      (fun l => by cases l <;> simp [lockRank]) fun t => does_ordered hm (hd t)

/-- C103 is false: a logger that protects its messages with the frame protector that calls it - the
first failure of `Protect` never returns. -/
theorem C103_logger_deadlock :
    ∃ prog : List Act, Does (fun k m => k = .logger ∧ m = .protect) [.protect [.tried true false]] prog ∧
      ∃ n c, run (T := Unit) (.init fun _ => prog) (List.replicate n ()) = .ok c ∧
        c.prog () ≠ [] ∧ ∀ schedule : List Unit, run c schedule = .ok c := by
  have h : Does (fun k m => k = .logger ∧ m = .protect) [.protect [.tried true false]] _ :=
    does_at (k := .logger) (c := .protect [.tried true true])
      (pre := acts overhead ++ [.callback .allocator, .act (.acquire .protectMu)] ++
        acts (crypterProtect (.tried true false))) rfl ⟨rfl, rfl⟩ (quiet_acts _)
  refine ⟨_, h, 17, _, rfl, nofun, ?_⟩
  intro schedule
  induction schedule with
  | nil => rfl
  | cons u schedule ih => exact ih

example : Spec.Lively fun k m => k = .allocator ∧ m = .protect ∨ m = .size :=
  (C103_frame_protector_partial _).2 ⟨fun k h => by simp at h, fun k hk => by
    rcases hk with rfl | rfl <;> simp⟩

/-- Functions that follow the rules and do use the frame protector: one thread unprotects two
records, the allocator protects a message each time; the other thread protects. -/
example : ∃ prog : Bool → List Act, (∀ t, Does (fun k m => k = .allocator ∧ m = .protect)
      (if t then [.unprotect [.data true, .closed]] else [.protect [.tooSmall]]) (prog t)) ∧
    (prog true).length > 40 ∧ NoDeadlock prog := by
  have h1 : ∃ p, Does (fun k m => k = .allocator ∧ m = .protect)
      [.unprotect [.data true, .closed]] p ∧ 40 < p.length :=
    ⟨_, does_at (k := .allocator) (c := .protect [.tried true true])
      (pre := acts overhead ++ .act (.acquire .unprotectMu) :: acts overhead) rfl ⟨rfl, rfl⟩
      (quiet_acts _), by decide⟩
  have h2 : ∃ p, Does (fun k m => k = .allocator ∧ m = .protect) [.protect [.tooSmall]] p :=
    ⟨_, quiet_acts _⟩
  obtain ⟨p1, h1, hl⟩ := h1
  obtain ⟨p2, h2⟩ := h2
  have hd : ∀ t : Bool, Does (fun k m => k = .allocator ∧ m = .protect)
      (if t then [.unprotect [.data true, .closed]] else [.protect [.tooSmall]])
      (if t then p1 else p2) := fun t => by
    cases t
    · exact h2
    · exact h1
  exact ⟨fun t => if t then p1 else p2, hd, hl,
    (C103_frame_protector_partial fun k m => k = .allocator ∧ m = .protect).2
      ⟨fun k h => by simp at h, fun k hk => by rcases hk with rfl | rfl <;> simp⟩ Bool
      (fun t => if t then [.unprotect [.data true, .closed]] else [.protect [.tooSmall]]) _ hd⟩

/-- C103 for the proxy, in part: exactly when the logger and the access token manager of a proxy may
use the proxy - never.  What is missing: the claim is false for other functions. -/
theorem C103_proxy_partial (may : ProxyCallback → ProxyMethod → Prop) :
    (∀ (T : Type) [DecidableEq T] (calls : T → List ProxyCall) (prog : T → List ProxyAct),
      (∀ t, ProxyDoes may (calls t) (prog t)) → NoDeadlock prog) ↔ ∀ k m, ¬ may k m := by
  constructor
  · intro h k m hk
    have go : ∀ c : ProxyCall, c.method = m → ∀ rest, (∃ inner, inner = .acquire () :: rest ∧
        Unfolds ProxyCall.steps (fun k c => may k c.method) c.steps inner) → False := by
      intro c hc rest ⟨inner, hin, hu⟩
      subst hin hc
      have pre : ∃ pre post, ProxyCall.steps .forS2A = .act (.acquire ()) :: pre ++
          .callback k :: post ∧ (pre.filterMap Step.action?) =
            ([.read .state] : List ProxyAct) := by
        cases k with
        | logger => exact ⟨[.act (.read .state), .callback .tokenManager], _, rfl, rfl⟩
        | tokenManager => exact ⟨[.act (.read .state)], _, rfl, rfl⟩
      obtain ⟨pre, post, hs, hp⟩ := pre
      have := unfolds_at (body := ProxyCall.steps) (may := fun k c => may k c.method)
        (pre := .act (.acquire ()) :: pre) (post := post) (c := c) hk hu
      rw [← hs, List.filterMap_cons, hp] at this
      have hd : ProxyDoes may [.forS2A] (.acquire () :: .read .state :: .acquire () ::
          (rest ++ post.filterMap Step.action?)) := by
        unfold ProxyDoes
        rw [List.flatMap_cons, List.flatMap_nil, List.append_nil]
        exact this
      have key : ∀ as : List ProxyAct,
          ¬ NoDeadlock (T := Unit) fun _ =>
            (.acquire () :: .read .state :: .acquire () :: as : List ProxyAct) :=
        fun as => deadlock_alone (n := 2) rfl nofun rfl
      exact key (rest ++ post.filterMap Step.action?) (h Unit (fun _ => [.forS2A]) _ fun _ => hd)
    cases m with
    | forS2A => exact go .forS2A rfl _ ⟨_, rfl, quiet_acts _⟩
    | forPeer => exact go (.forPeer .noResult) rfl _ ⟨_, rfl, quiet_acts _⟩
    | isFinished => exact go .isFinished rfl _ ⟨_, rfl, quiet_acts _⟩
    | createFrameProtector => exact go (.createFrameProtector true) rfl _ ⟨_, rfl, quiet_acts _⟩
    | getContext => exact go (.getContext true) rfl _ ⟨_, rfl, quiet_acts _⟩
  · intro hm T _ calls prog hd
    exact noDeadlock_of_ordered (S := proxyShape) (rank := fun _ => 0) (B := 0)
      (fun _ => Nat.le_refl _) fun t => proxyDoes_ordered hm (hd t)

example : ∃ prog : List ProxyAct, ProxyDoes (fun _ _ => False) [.forS2A, .forPeer .complete] prog ∧
    NoDeadlock (T := Nat) fun _ => prog :=
  ⟨_, quiet_acts _, (C103_proxy_partial _).2 (fun _ _ => id) Nat
    (fun _ => [.forS2A, .forPeer .complete]) _ fun _ => quiet_acts _⟩

/-- C103 is false of the proxy: an access token manager that asks whether the handshake is finished
never returns. -/
theorem C103_token_manager_deadlock :
    ∃ prog : List ProxyAct,
      ProxyDoes (fun k m => k = .tokenManager ∧ m = .isFinished) [.forS2A] prog ∧
      ∃ n c, run (T := Unit) (.init fun _ => prog) (List.replicate n ()) = .ok c ∧
        c.prog () ≠ [] ∧ ∀ schedule : List Unit, run c schedule = .ok c := by
  have h : ProxyDoes (fun k m => k = .tokenManager ∧ m = .isFinished) [.forS2A] _ :=
    unfolds_at (body := ProxyCall.steps) (k := ProxyCallback.tokenManager)
      (c := ProxyCall.isFinished) (pre := acts ([.acquire (), .read .state] : List ProxyAct))
      ⟨rfl, rfl⟩ (quiet_acts _)
  refine ⟨_, h, 2, _, rfl, nofun, ?_⟩
  intro schedule
  induction schedule with
  | nil => rfl
  | cons u schedule ih => exact ih

end S2A.Race
