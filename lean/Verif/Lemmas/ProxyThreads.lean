import Verif.Spec.ProxyThreads
import Verif.Lemmas.Threads
import Verif.Lemmas.Proxy
import Verif.Props.Frame
/-
Lemmas for concurrent calls on a proxy.
-/
namespace S2A.Proxy
open S2A.Proto S2A.Util
open Spec (Earlier)
open Spec.OnProxy
open Frame (earlier_snoc earlier_last zip_unzip')
variable {T : Type}

/-! ### What the methods change -/

/-- Several assignments. -/
def applyAll (as : List Assign) (s : State) : State := as.foldl (fun s a => a.apply s) s

theorem applyAll_append (as bs : List Assign) (s : State) :
    applyAll (as ++ bs) s = applyAll bs (applyAll as s) := List.foldl_append ..

/-- Assignments to members that `CreateFrameProtector` and `GetS2AContext` do not use. -/
def Assign.Quiet : Assign → Prop
  | .cache _ => True
  | .first _ => True
  | .selected _ => True
  | _ => False

/-- The members that `CreateFrameProtector` and `GetS2AContext` use are the same. -/
structure Same (s s' : State) : Prop where
  options : s'.options = s.options
  hasFactory : s'.hasFactory = s.hasFactory
  finished : s'.finished = s.finished
  context : s'.context = s.context
  result : s'.result = s.result

theorem Same.refl (s : State) : Same s s := ⟨rfl, rfl, rfl, rfl, rfl⟩

theorem Same.trans {a b c : State} (h : Same a b) (h' : Same b c) : Same a c :=
  ⟨h'.options.trans h.options, h'.hasFactory.trans h.hasFactory, h'.finished.trans h.finished,
    h'.context.trans h.context, h'.result.trans h.result⟩

theorem Assign.Quiet.same {a : Assign} (h : a.Quiet) (s : State) : Same s (a.apply s) := by
  cases a <;> first | exact ⟨rfl, rfl, rfl, rfl, rfl⟩ | exact h.elim

theorem applyAll_same {as : List Assign} (h : ∀ a ∈ as, a.Quiet) (s : State) :
    Same s (applyAll as s) := by
  induction as generalizing s with
  | nil => exact .refl s
  | cons a as ih =>
    exact ((h a (by simp)).same s).trans (ih (fun b hb => h b (by simp [hb])) _)

theorem applyAll_options (as : List Assign) (s : State) :
    (applyAll as s).options = s.options := by
  induction as generalizing s with
  | nil => rfl
  | cons a as ih => exact (ih (a.apply s)).trans (by cases a <;> rfl)

theorem Assign.Quiet.noFactory {a : Assign} (h : a.Quiet) (s : State) :
    a.apply (Assign.noFactory.apply s) = Assign.noFactory.apply (a.apply s) := by
  cases a <;> first | rfl | exact h.elim

theorem Assign.Quiet.noContext {a : Assign} (h : a.Quiet) (s : State) :
    a.apply ((Assign.context none).apply s) = (Assign.context none).apply (a.apply s) := by
  cases a <;> first | rfl | exact h.elim

theorem applyAll_noFactory {as : List Assign} (h : ∀ a ∈ as, a.Quiet) (s : State) :
    applyAll as (Assign.noFactory.apply s) = Assign.noFactory.apply (applyAll as s) := by
  induction as generalizing s with
  | nil => rfl
  | cons a as ih =>
    show applyAll as (a.apply _) = _
    rw [(h a (by simp)).noFactory, ih (fun b hb => h b (by simp [hb]))]
    rfl

theorem applyAll_noContext {as : List Assign} (h : ∀ a ∈ as, a.Quiet) (s : State) :
    applyAll as ((Assign.context none).apply s) = (Assign.context none).apply (applyAll as s) := by
  induction as generalizing s with
  | nil => rfl
  | cons a as ih =>
    show applyAll as (a.apply _) = _
    rw [(h a (by simp)).noContext, ih (fun b hb => h b (by simp [hb]))]
    rfl

theorem fetchAll_members (e : Env) (s : State) (n : Nat) :
    ∃ c, (fetchAll e s n).1 = { s with cache := c } := by
  unfold fetchAll
  simp only
  split <;> exact ⟨_, rfl⟩

theorem populate_members (e : Env) (s : State) :
    ∃ c, (populate e s).1 = { s with cache := c } := by
  unfold populate
  split
  · exact ⟨_, rfl⟩
  · split
    · split
      · exact ⟨_, rfl⟩
      · split
        · exact ⟨_, rfl⟩
        · exact fetchAll_members e s 1
    · exact fetchAll_members e s 0

theorem finishRequest_members (e : Env) (s : State) (kind : ReqKind) :
    ∃ c, (finishRequest e s kind).1 = { s with cache := c } := by
  unfold finishRequest
  simp only
  split <;> exact populate_members e s

/-- `GetBytesForS2A` writes two members. -/
theorem forS2A_members (e : Env) (s : State) (bytes : Option Bytes) :
    (getBytesForS2A e s bytes).1 = { s with cache := (getBytesForS2A e s bytes).1.cache
                                            first := (getBytesForS2A e s bytes).1.first } := by
  have h1 : ∃ c, (getClientStart e s).1 = { s with cache := c } := by
    unfold getClientStart
    split
    · exact ⟨_, rfl⟩
    · exact finishRequest_members ..
  have h2 : ∃ c, (getServerStart e s bytes).1 = { s with cache := c } := by
    unfold getServerStart
    split
    · exact ⟨_, rfl⟩
    · exact finishRequest_members ..
  have key : ∀ x : State × Status × Asked, (∃ c, x.1 = { s with cache := c }) →
      ∃ c f, (if x.2.1.code = .ok then { x.1 with first := false } else x.1) =
        { s with cache := c, first := f } := by
    rintro x ⟨c, hx⟩
    rw [hx]
    split <;> exact ⟨_, _, rfl⟩
  have h3 : ∃ c f, (getBytesForS2A e s bytes).1 = { s with cache := c, first := f } := by
    unfold getBytesForS2A
    split
    · split
      · exact ⟨_, _, rfl⟩
      · refine key (if s.isClient then getClientStart e s else getServerStart e s bytes) ?_
        split
        · exact h1
        · exact h2
    · split
      · exact ⟨_, _, rfl⟩
      · obtain ⟨c, hc⟩ := finishRequest_members e s (.next ⟨bytes.getD []⟩)
        unfold getNext
        rw [hc]
        exact ⟨_, _, rfl⟩
  obtain ⟨c, f, h3⟩ := h3
  rw [h3]

theorem resultAssigns_apply (s : State) (r : SessionResult) :
    (applyAll (resultAssigns r).1 s, (resultAssigns r).2) =
      handleResult { s with finished := true } r := by
  unfold resultAssigns handleResult
  cases r.state with
  | none => rfl
  | some st =>
    simp only
    cases tlsVersionFromProto st.tlsVersion with
    | error c => rfl
    | ok v =>
      simp only
      cases ciphersuiteFromProto st.ciphersuite with
      | error c => rfl
      | ok cs =>
        simp only
        cases r.localIdentity with
        | none => simp [applyAll, Assign.apply]
        | some li => simp [applyAll, Assign.apply]

/-- `GetBytesForPeer` writes what `peerAssigns` says. -/
theorem peerAssigns_apply (dec : Bytes → Option SessionResp) (bytes : Option Bytes) (s : State) :
    (applyAll (peerAssigns dec bytes).1 s, (peerAssigns dec bytes).2) =
      getBytesForPeer dec s bytes := by
  unfold peerAssigns getBytesForPeer
  split
  · rfl
  · cases dec (bytes.getD []) with
    | none => rfl
    | some resp =>
      simp only
      cases resp.status with
      | none => rfl
      | some status =>
        simp only
        split
        · rfl
        · cases hl : resp.localIdentity <;> cases hr : resp.result <;> simp only
          case some.none i => rfl
          case none.none => rfl
          case none.some r =>
            rw [← resultAssigns_apply]
            cases h : resultAssigns r with
            | mk as c => cases c <;> rfl
          case some.some i r =>
            rw [← resultAssigns_apply { s with selected := some (identityFromProto (some i)) }]
            cases h : resultAssigns r with
            | mk as c => cases c <;> rfl

theorem peerAssigns_quiet {dec : Bytes → Option SessionResp} {bytes : Option Bytes}
    (h : brings (.forPeer dec bytes) = false) : ∀ a ∈ (peerAssigns dec bytes).1, a.Quiet := by
  simp only [brings] at h
  unfold peerAssigns
  split
  · simp
  · rename_i hne
    have hne : (bytes.getD [] != []) = true := by
      simp only [bne, Bool.not_eq_true'] ; simpa using hne
    rw [hne, Bool.true_and] at h
    cases hd : dec (bytes.getD []) with
    | none => simp
    | some resp =>
      rw [hd] at h
      simp only at h ⊢
      cases hs : resp.status with
      | none => simp
      | some status =>
        rw [hs] at h
        simp only
        split
        · simp
        · rename_i hc
          have hc : status.code = 0 := by simpa using hc
          have : resp.result = none := by
            simpa [hc] using h
          rw [this]
          simp only
          intro a ha
          cases hl : resp.localIdentity with
          | none => rw [hl] at ha; simp at ha
          | some i =>
            rw [hl] at ha
            simp only [List.mem_singleton] at ha
            subst ha; trivial

/-! ### The order -/

/-- A call in the order, with its result. -/
abbrev Done (T : Type) := (T × Nat) × Event

/-- `lin` is an order of calls that explains the returns in `log`; `g` is the state they lead to. -/
structure Lin (L : Lib) (calls : T → List Op) (s0 : State) (log : List (Obs T))
    (lin : List (Done T)) (ops : List Op) (g : State) : Prop where
  nodup : (lin.map (·.1)).Nodup
  began : ∀ x ∈ lin.map (·.1), .invoked x ∈ log
  realTime : ∀ a b, Precedes log a b → b ∈ lin.map (·.1) → Earlier (lin.map (·.1)) a b
  ret : ∀ x ev, .returned x ev ∈ log → (x, ev) ∈ lin
  ops_eq : (lin.map (·.1)).map (fun x => (calls x.1)[x.2]?) = ops.map some
  runs : run L s0 ops = .ok (g, lin.map (·.2))
  brought : g.finished = true →
    ∃ x ∈ lin.map (·.1), ∃ op, (calls x.1)[x.2]? = some op ∧ brings op = true

theorem precedes_snoc_returned {log : List (Obs T)} {a b x : T × Nat} {ev : Event}
    (h : Precedes (log ++ [.returned x ev]) a b) : Precedes log a b := by
  obtain ⟨l1, l2, l3, e, h⟩ := h
  rcases List.eq_nil_or_concat l3 with rfl | ⟨l3', z, rfl⟩
  · have := (List.append_inj' h rfl).2
    cases this
  · rw [List.concat_eq_append, show l1 ++ Obs.returned a e :: l2 ++ Obs.invoked b :: (l3' ++ [z]) =
      (l1 ++ Obs.returned a e :: l2 ++ Obs.invoked b :: l3') ++ [z] by simp] at h
    exact ⟨l1, l2, l3', e, (List.append_inj' h rfl).1⟩

theorem precedes_snoc_invoked {log : List (Obs T)} {a b x : T × Nat}
    (h : Precedes (log ++ [.invoked x]) a b) : Precedes log a b ∨ b = x := by
  obtain ⟨l1, l2, l3, e, h⟩ := h
  rcases List.eq_nil_or_concat l3 with rfl | ⟨l3', z, rfl⟩
  · have := (List.append_inj' h rfl).2
    cases this
    exact .inr rfl
  · rw [List.concat_eq_append, show l1 ++ Obs.returned a e :: l2 ++ Obs.invoked b :: (l3' ++ [z]) =
      (l1 ++ Obs.returned a e :: l2 ++ Obs.invoked b :: l3') ++ [z] by simp] at h
    exact .inl ⟨l1, l2, l3', e, (List.append_inj' h rfl).1⟩

theorem precedes_returned {log : List (Obs T)} {a b : T × Nat} (h : Precedes log a b) :
    ∃ ev, .returned a ev ∈ log := by
  obtain ⟨l1, l2, l3, e, rfl⟩ := h
  exact ⟨e, by simp⟩

theorem run_append_error {L : Lib} {ops1 ops2 : List Op} {s s1 : State}
    {e1 : List Event} {e : UB} (h1 : run L s ops1 = .ok (s1, e1))
    (h2 : run L s1 ops2 = .error e) : run L s (ops1 ++ ops2) = .error e := by
  induction ops1 generalizing s e1 with
  | nil => cases h1; exact h2
  | cons op ops ih =>
    simp only [run, HalfConn.exec_bind_eq_ok] at h1
    obtain ⟨⟨s2, ev⟩, h3, ⟨s3, evs⟩, h4, h5⟩ := h1
    cases h5
    simp only [List.cons_append, run, h3, exec_bind_ok, ih h4]
    rfl

theorem frame_create_ok (L : Lib) (fIn fOut : KeyFault) (o : Frame.Options) :
    ∃ p, Frame.create L fIn fOut o = .ok p := by
  obtain ⟨p, h, _⟩ := Frame.C58_protector_creation L fIn fOut o
  exact ⟨p, h⟩

/-- The handshake is finished only by a call that brings a result. -/
theorem step_finished {L : Lib} {s s' : State} {op : Op} {ev : Event}
    (h : step L s op = .ok (s', ev)) (hf : s'.finished = true) :
    s.finished = true ∨ brings op = true := by
  cases op with
  | forS2A e bytes =>
    simp only [step, Except.ok.injEq, Prod.mk.injEq] at h
    rw [← h.1, forS2A_members] at hf
    exact .inl hf
  | forPeer dec bytes =>
    simp only [step, Except.ok.injEq, Prod.mk.injEq] at h
    rw [← h.1, ← peerAssigns_apply] at hf
    cases hb : brings (.forPeer dec bytes) with
    | true => exact .inr rfl
    | false => exact .inl ((applyAll_same (peerAssigns_quiet hb) s).finished ▸ hf)
  | isFinished =>
    simp only [step, Except.ok.injEq, Prod.mk.injEq] at h
    rw [← h.1] at hf; exact .inl hf
  | createFrameProtector fIn fOut =>
    simp only [step, createFrameProtector] at h
    cases hs : s.finished with
    | true => exact .inl rfl
    | false =>
      simp only [hs, Bool.not_false, if_true, exec_bind_ok] at h
      cases h
      rw [hs] at hf; cases hf
  | getContext =>
    simp only [step, getS2AContext] at h
    cases hs : s.finished with
    | true => exact .inl rfl
    | false =>
      simp only [hs, Bool.not_false, if_true] at h
      cases h
      rw [hs] at hf; cases hf

/-- A call takes effect. -/
theorem Lin.extend {L : Lib} {calls : T → List Op} {s0 : State} {log : List (Obs T)} {lin ops g}
    (h : Lin L calls s0 log lin ops g) {x : T × Nat} {op : Op} {g' : State} {ev : Event}
    (hop : (calls x.1)[x.2]? = some op) (hnew : x ∉ lin.map (·.1)) (hlog : .invoked x ∈ log)
    (hs : step L g op = .ok (g', ev)) :
    Lin L calls s0 log (lin ++ [(x, ev)]) (ops ++ [op]) g' where
  nodup := by
    rw [List.map_append]
    refine List.nodup_append.mpr ⟨h.nodup, by simp, ?_⟩
    intro a ha b hb
    simp only [List.map_cons, List.map_nil, List.mem_singleton] at hb
    subst hb
    rintro rfl
    exact hnew ha
  began := by
    intro y hy
    rw [List.map_append, List.mem_append] at hy
    rcases hy with hy | hy
    · exact h.began y hy
    · simp only [List.map_cons, List.map_nil, List.mem_singleton] at hy
      subst hy; exact hlog
  realTime := by
    intro a b hab hb
    rw [List.map_append, List.mem_append] at hb
    rw [List.map_append]
    rcases hb with hb | hb
    · exact earlier_snoc _ (h.realTime a b hab hb)
    · simp only [List.map_cons, List.map_nil, List.mem_singleton] at hb
      subst hb
      obtain ⟨e, he⟩ := precedes_returned hab
      exact earlier_last _ (List.mem_map.mpr ⟨_, h.ret _ _ he, rfl⟩)
  ret := fun y e hy => List.mem_append_left _ (h.ret y e hy)
  ops_eq := by
    simp only [List.map_append, List.map_cons, List.map_nil, hop]
    rw [h.ops_eq]
  runs := by
    rw [List.map_append]
    exact run_append h.runs (by simp only [run, hs, exec_bind_ok]; rfl)
  brought := by
    intro hf
    rcases step_finished hs hf with hf | hb
    · obtain ⟨y, hy, h1⟩ := h.brought hf
      exact ⟨y, by rw [List.map_append]; exact List.mem_append_left _ hy, h1⟩
    · exact ⟨x, by simp, op, hop, hb⟩

theorem Lin.begin {L : Lib} {calls : T → List Op} {s0 : State} {log : List (Obs T)} {lin ops g}
    (h : Lin L calls s0 log lin ops g) {x : T × Nat} (hnew : .invoked x ∉ log) :
    Lin L calls s0 (log ++ [.invoked x]) lin ops g where
  nodup := h.nodup
  began := fun y hy => List.mem_append_left _ (h.began y hy)
  realTime := by
    intro a b hab hb
    rcases precedes_snoc_invoked hab with hab | rfl
    · exact h.realTime a b hab hb
    · exact absurd (h.began b hb) hnew
  ret := by
    intro y e hy
    simp only [List.mem_append, List.mem_singleton] at hy
    rcases hy with hy | hy
    · exact h.ret y e hy
    · cases hy
  ops_eq := h.ops_eq
  runs := h.runs
  brought := h.brought

theorem Lin.return {L : Lib} {calls : T → List Op} {s0 : State} {log : List (Obs T)} {lin ops g}
    (h : Lin L calls s0 log lin ops g) {x : T × Nat} {ev : Event} (hx : (x, ev) ∈ lin) :
    Lin L calls s0 (log ++ [.returned x ev]) lin ops g where
  nodup := h.nodup
  began := fun y hy => List.mem_append_left _ (h.began y hy)
  realTime := fun a b hab hb => h.realTime a b (precedes_snoc_returned hab) hb
  ret := by
    intro y e hy
    simp only [List.mem_append, List.mem_singleton] at hy
    rcases hy with hy | hy
    · exact h.ret y e hy
    · cases hy; exact hx
  ops_eq := h.ops_eq
  runs := h.runs
  brought := h.brought

/-! ### Where a call is -/

/-- A call of `CreateFrameProtector` or `GetS2AContext` that found the handshake finished. -/
inductive After (L : Lib) (g : State) : Op → Prog → Prop
  | gather {fIn fOut : KeyFault} {fs : List (HsResult → HsResult → HsResult)} {acc : HsResult}
      (hs : ∀ r, g.result = some r → fs.foldl (fun a f => f a r) acc = r)
      (hn : g.result = none → fs ≠ []) :
      After L g (.createFrameProtector fIn fOut) (readResult (moveFactory L fIn fOut) fs acc)
  | factory {fIn fOut : KeyFault} {r : HsResult} (hr : g.result = some r) :
      After L g (.createFrameProtector fIn fOut)
        (.write .noFactory (createEnd L fIn fOut (frameOptions g r)))
  | fault {fIn fOut : KeyFault} (hr : g.result = none) :
      After L g (.createFrameProtector fIn fOut) (.ub .nullDeref)
  | context :
      After L g .getContext
        (.read fun s => .write (.context none) (.done (.getContext (.ok s.context))))
  | taken : After L g .getContext (.write (.context none) (.done (.getContext (.ok g.context))))

theorem frameOptions_congr {s s' : State} (h1 : s'.options = s.options)
    (h2 : s'.hasFactory = s.hasFactory) (r : HsResult) : frameOptions s' r = frameOptions s r := by
  unfold frameOptions
  rw [h1, h2]

theorem After.same {L : Lib} {g g' : State} {op : Op} {p : Prog} (h : After L g op p)
    (hs : Same g g') : After L g' op p := by
  cases h with
  | gather h1 h2 => exact .gather (fun r hr => h1 r (hs.result ▸ hr)) fun hr => h2 (hs.result ▸ hr)
  | factory hr =>
    rw [← frameOptions_congr hs.options hs.hasFactory]
    exact .factory (hs.result.trans hr)
  | fault hr => exact .fault (hs.result.trans hr)
  | context => exact .context
  | taken => rw [← hs.context]; exact .taken

theorem After.takes {L : Lib} {g : State} {op : Op} {p : Prog} (h : After L g op p) :
    creates op = true ∨ takesContext op = true := by
  cases h <;> first | exact .inl rfl | exact .inr rfl

/-- Where a call is, with respect to an order of calls `lin` that leads to `g`; `pend` is what the
thread with the mutex is still going to write. -/
inductive Stage (L : Lib) (lin : List (Done T)) (g : State) (pend : List Assign)
    (holder : Option T) (x : T × Nat) (op : Op) : Prog → Prop
  | fresh (hx : x ∉ lin.map (·.1)) (hh : holder ≠ some x.1) : Stage L lin g pend holder x op (op.prog L)
  | reading {k : State → Prog} (hk : op.prog L = .acquire (.read k)) (hx : x ∉ lin.map (·.1))
      (hh : holder = some x.1) (hp : pend = []) : Stage L lin g pend holder x op (.read k)
  | writing {ev : Event} (hx : (x, ev) ∈ lin) (hh : holder = some x.1) :
      Stage L lin g pend holder x op (.writes pend (.release (.done ev)))
  | returning {ev : Event} (hx : (x, ev) ∈ lin) (hh : holder ≠ some x.1) :
      Stage L lin g pend holder x op (.done ev)
  | passed {p : Prog} (hx : x ∉ lin.map (·.1)) (hh : holder = some x.1) (hp : pend = [])
      (hf : g.finished = true) (ha : After L g op p) : Stage L lin g pend holder x op (.release p)
  | after {p : Prog} (hx : x ∉ lin.map (·.1)) (hh : holder ≠ some x.1)
      (hp : ∀ a ∈ pend, a.Quiet) (hf : g.finished = true) (ha : After L g op p) :
      Stage L lin g pend holder x op p

/-- A call stays where it is when another thread takes a step. -/
theorem Stage.frame {L : Lib} {lin lin' : List (Done T)} {g g' : State} {pend pend' : List Assign}
    {holder holder' : Option T} {x : T × Nat} {op : Op} {p : Prog}
    (h : Stage L lin g pend holder x op p) (hin : ∀ y ∈ lin, y ∈ lin')
    (hnew : x ∉ lin.map (·.1) → x ∉ lin'.map (·.1))
    (hh : holder' = some x.1 ↔ holder = some x.1) (hp : holder = some x.1 → pend' = pend)
    (ha : x ∉ lin.map (·.1) → g.finished = true → ∀ q, After L g op q →
      (holder ≠ some x.1 → (∀ a ∈ pend, a.Quiet) → ∀ a ∈ pend', a.Quiet) ∧ g'.finished = true ∧
        After L g' op q) :
    Stage L lin' g' pend' holder' x op p := by
  cases h with
  | fresh hx h1 => exact .fresh (hnew hx) fun e => h1 (hh.mp e)
  | reading hk hx h1 h2 => exact .reading hk (hnew hx) (hh.mpr h1) ((hp h1).trans h2)
  | writing hx h1 => rw [← hp h1]; exact .writing (hin _ hx) (hh.mpr h1)
  | returning hx h1 => exact .returning (hin _ hx) fun e => h1 (hh.mp e)
  | passed hx h1 h2 hf hq =>
    obtain ⟨_, a2, a3⟩ := ha hx hf _ hq
    exact .passed (hnew hx) (hh.mpr h1) ((hp h1).trans h2) a2 a3
  | after hx h1 h2 hf hq =>
    obtain ⟨a1, a2, a3⟩ := ha hx hf _ hq
    exact .after (hnew hx) (fun e => h1 (hh.mp e)) (a1 h1 h2) a2 a3

/-- The invariant. -/
structure TInv (L : Lib) (calls : T → List Op) (s0 : State) (c : Threads T)
    (lin : List (Done T)) (ops : List Op) (g : State) (pend : List Assign) : Prop where
  order : Lin L calls s0 c.log lin ops g
  sync : g = applyAll pend c.shared
  free : c.holder = none → pend = []
  idle : ∀ t n, c.place t = .idle n →
    c.holder ≠ some t ∧ ∀ m, n ≤ m → .invoked (t, m) ∉ c.log
  inside : ∀ t n p, c.place t = .inside n p →
    .invoked (t, n) ∈ c.log ∧ (∀ m, n < m → .invoked (t, m) ∉ c.log) ∧
    ∃ op, (calls t)[n]? = some op ∧ Stage L lin g pend c.holder (t, n) op p

theorem tinv_init (L : Lib) (calls : T → List Op) (s0 : State) (h0 : s0.finished = false) :
    TInv L calls s0 (Threads.init s0) [] [] s0 [] where
  order := ⟨List.nodup_nil, fun x hx => by simp at hx, fun a b _ hb => by simp at hb,
    fun x ev h => by simp [Threads.init] at h, rfl, rfl, fun h => by rw [h0] at h; cases h⟩
  sync := rfl
  free := fun _ => rfl
  idle := fun t n _ => ⟨by simp [Threads.init], fun m _ h => by simp [Threads.init] at h⟩
  inside := fun t n p h => by simp [Threads.init] at h

variable [DecidableEq T]

theorem moved_self (place : T → Where) (t : T) (w : Where) : moved place t w t = w := by
  simp [moved]

theorem moved_other (place : T → Where) {t t' : T} (w : Where) (h : t' ≠ t) :
    moved place t w t' = place t' := by
  simp [moved, h]

/-- A step inside of a call. -/
theorem TInv.internal {L : Lib} {calls : T → List Op} {s0 : State} {c : Threads T}
    {lin ops g pend} (h : TInv L calls s0 c lin ops g pend) {t : T} {n : Nat} {p p' : Prog} {op : Op}
    (hw : c.place t = .inside n p) (hop : (calls t)[n]? = some op) {lin' ops' g' pend'}
    {shared' : State} {holder' : Option T}
    (hlin : Lin L calls s0 c.log lin' ops' g') (hsync : g' = applyAll pend' shared')
    (hfree : holder' = none → pend' = [])
    (hin : ∀ y ∈ lin, y ∈ lin') (hnew : ∀ y ∈ lin'.map (·.1), y ∈ lin.map (·.1) ∨ y = (t, n))
    (hh : ∀ t', t' ≠ t → (holder' = some t' ↔ c.holder = some t'))
    (hp : ∀ t', t' ≠ t → c.holder = some t' → pend' = pend)
    (ha : ∀ t' n' q op', t' ≠ t → c.place t' = .inside n' q → (calls t')[n']? = some op' →
      (t', n') ∉ lin.map (·.1) → g.finished = true → ∀ q, After L g op' q →
        (c.holder ≠ some t' → (∀ a ∈ pend, a.Quiet) → ∀ a ∈ pend', a.Quiet) ∧
          g'.finished = true ∧ After L g' op' q)
    (hst : Stage L lin' g' pend' holder' (t, n) op p') :
    TInv L calls s0 ⟨shared', holder', moved c.place t (.inside n p'), c.log⟩ lin' ops' g' pend' where
  order := hlin
  sync := hsync
  free := hfree
  idle := by
    intro t' m hm
    by_cases e : t' = t
    · subst e; simp only [moved_self] at hm; cases hm
    · simp only [moved_other _ _ e] at hm
      obtain ⟨h1, h2⟩ := h.idle t' m hm
      exact ⟨fun e' => h1 ((hh t' e).mp e'), h2⟩
  inside := by
    intro t' m q hm
    by_cases e : t' = t
    · subst e
      simp only [moved_self, Where.inside.injEq] at hm
      obtain ⟨rfl, rfl⟩ := hm
      obtain ⟨h1, h2, _⟩ := h.inside _ _ _ hw
      exact ⟨h1, h2, op, hop, hst⟩
    · simp only [moved_other _ _ e] at hm
      obtain ⟨h1, h2, op', h3, h4⟩ := h.inside t' m q hm
      refine ⟨h1, h2, op', h3, h4.frame hin ?_ (hh t' e) (hp t' e) ?_⟩
      · intro hx hy
        rcases hnew _ hy with hy | hy
        · exact hx hy
        · exact e (congrArg Prod.fst hy)
      · intro hx hf
        exact ha t' m q op' e hm h3 hx hf

/-- The order did not change, nor the state. -/
theorem TInv.quiet {L : Lib} {calls : T → List Op} {s0 : State} {c : Threads T}
    {lin ops g pend} (h : TInv L calls s0 c lin ops g pend) {t : T} {n : Nat} {p p' : Prog} {op : Op}
    (hw : c.place t = .inside n p) (hop : (calls t)[n]? = some op) {holder' : Option T}
    (hfree : holder' = none → pend = [])
    (hh : ∀ t', t' ≠ t → (holder' = some t' ↔ c.holder = some t'))
    (hst : Stage L lin g pend holder' (t, n) op p') :
    TInv L calls s0 ⟨c.shared, holder', moved c.place t (.inside n p'), c.log⟩ lin ops g pend :=
  h.internal hw hop h.order h.sync hfree (fun _ hy => hy) (fun _ hy => .inl hy) hh
    (fun _ _ _ => rfl) (fun _ _ _ _ _ _ _ _ hf _ hq => ⟨fun _ hp => hp, hf, hq⟩) hst

theorem mem_snoc {lin : List (Done T)} {x : T × Nat} {ev : Event} :
    ∀ y ∈ (lin ++ [(x, ev)]).map (·.1), y ∈ lin.map (·.1) ∨ y = x := by
  intro y hy
  simpa using hy

/-- A call takes effect, without changing what the calls that found the handshake finished use. -/
theorem TInv.effect {L : Lib} {calls : T → List Op} {s0 : State} {c : Threads T}
    {lin ops g pend} (h : TInv L calls s0 c lin ops g pend) {t : T} {n : Nat} {p p' : Prog} {op : Op}
    (hw : c.place t = .inside n p) (hop : (calls t)[n]? = some op) (hx : (t, n) ∉ lin.map (·.1))
    {g' : State} {ev : Event} (hs : step L g op = .ok (g', ev)) {pend' : List Assign}
    {shared' : State} {holder' : Option T} (hsync : g' = applyAll pend' shared')
    (hfree : holder' = none → pend' = [])
    (hh : ∀ t', t' ≠ t → (holder' = some t' ↔ c.holder = some t'))
    (hp : ∀ t', t' ≠ t → c.holder = some t' → pend' = pend)
    (ha : ∀ t' n' q op', t' ≠ t → c.place t' = .inside n' q → (calls t')[n']? = some op' →
      (t', n') ∉ lin.map (·.1) → g.finished = true → ∀ q, After L g op' q →
        (c.holder ≠ some t' → (∀ a ∈ pend, a.Quiet) → ∀ a ∈ pend', a.Quiet) ∧
          g'.finished = true ∧ After L g' op' q)
    (hst : Stage L (lin ++ [((t, n), ev)]) g' pend' holder' (t, n) op p') :
    TInv L calls s0 ⟨shared', holder', moved c.place t (.inside n p'), c.log⟩
      (lin ++ [((t, n), ev)]) (ops ++ [op]) g' pend' :=
  h.internal hw hop (h.order.extend hop hx (h.inside _ _ _ hw).1 hs) hsync hfree
    (fun _ hy => List.mem_append_left _ hy) mem_snoc hh hp ha hst

/-- Some result was brought before. -/
theorem TInv.brought {L : Lib} {calls : T → List Op} {s0 : State} {c : Threads T}
    {lin ops g pend} (h : TInv L calls s0 c lin ops g pend) (hap : Apart calls c)
    {t t' : T} {n n' : Nat} {p q : Prog} {op op' : Op} (hne : t' ≠ t)
    (hw : c.place t = .inside n p) (hop : (calls t)[n]? = some op) (hx : (t, n) ∉ lin.map (·.1))
    (hw' : c.place t' = .inside n' q) (hop' : (calls t')[n']? = some op')
    (ht : creates op' = true ∨ takesContext op' = true) (hf : g.finished = true) :
    brings op = false := by
  cases hb : brings op with
  | false => rfl
  | true =>
    obtain ⟨x, hxm, op'', h1, h2⟩ := h.order.brought hf
    have := (hap t' t n' n q p op' op hne hw' hw hop' hop).2.2 ht hb x op''
      (h.order.began x hxm) (fun e => hx (e ▸ hxm)) h1
    rw [h2] at this; cases this

/-- A step of a thread keeps the invariant. -/
theorem TInv.exec {L : Lib} {calls : T → List Op} {s0 : State} {c c' : Threads T}
    {lin ops g pend} (h : TInv L calls s0 c lin ops g pend) (hap : Apart calls c) {t : T}
    (hx : c.exec L calls t = .ok c') :
    ∃ lin' ops' g' pend', TInv L calls s0 c' lin' ops' g' pend' := by
  cases hw : c.place t with
  | idle n =>
    cases hop : (calls t)[n]? with
    | none =>
      simp only [Threads.exec, hw, hop, Except.ok.injEq] at hx
      subst hx
      exact ⟨lin, ops, g, pend, h⟩
    | some op =>
      simp only [Threads.exec, hw, hop, Except.ok.injEq] at hx
      subst hx
      obtain ⟨h1, h2⟩ := h.idle t n hw
      have hnew := h2 n (Nat.le_refl n)
      have hnot : ∀ m, n < m → Obs.invoked (t, m) ∉ c.log ++ [.invoked (t, n)] := by
        intro m hm hmem
        simp only [List.mem_append, List.mem_singleton, Obs.invoked.injEq, Prod.mk.injEq,
          true_and] at hmem
        rcases hmem with hmem | rfl
        · exact h2 m (by omega) hmem
        · omega
      have hother : ∀ t' m, t' ≠ t → Obs.invoked (t', m) ∉ c.log →
          Obs.invoked (t', m) ∉ c.log ++ [.invoked (t, n)] := by
        intro t' m hne hm hmem
        simp only [List.mem_append, List.mem_singleton, Obs.invoked.injEq, Prod.mk.injEq] at hmem
        rcases hmem with hmem | hmem
        · exact hm hmem
        · exact hne hmem.1
      refine ⟨lin, ops, g, pend, h.order.begin hnew, h.sync, h.free, ?_, ?_⟩
      · intro t' m hm
        by_cases e : t' = t
        · subst e; simp only [moved_self] at hm; cases hm
        · simp only [moved_other _ _ e] at hm
          obtain ⟨a1, a2⟩ := h.idle t' m hm
          exact ⟨a1, fun k hk => hother t' k e (a2 k hk)⟩
      · intro t' m q hm
        by_cases e : t' = t
        · subst e
          simp only [moved_self, Where.inside.injEq] at hm
          obtain ⟨rfl, rfl⟩ := hm
          exact ⟨by simp, hnot, op, hop, .fresh (fun hm => hnew (h.order.began _ hm)) h1⟩
        · simp only [moved_other _ _ e] at hm
          obtain ⟨a1, a2, a3⟩ := h.inside t' m q hm
          exact ⟨List.mem_append_left _ a1, fun k hk => hother t' k e (a2 k hk), a3⟩
  | inside n p =>
    obtain ⟨hlog, hlast, op, hop, hst⟩ := h.inside t n p hw
    cases hst with
    | fresh hnl hh =>
      -- waiting for the mutex
      cases hhold : c.holder with
      | some t0 =>
        have : c' = c := by
          cases op <;> simp only [Op.prog, forS2AP, forPeerP, askFinished, createP, getContextP] at hw <;>
            simp only [Threads.exec, hw, hhold, Except.ok.injEq] at hx <;> exact hx.symm
        subst this
        exact ⟨lin, ops, g, pend, h⟩
      | none =>
        have hpe := h.free hhold
        subst hpe
        have hg : g = c.shared := h.sync
        have hh' : ∀ t', t' ≠ t → (some t = some t' ↔ c.holder = some t') := by
          intro t' e
          rw [hhold]
          simp only [Option.some.injEq, reduceCtorEq, iff_false]
          exact fun e' => e e'.symm
        by_cases hr : ∃ k, op.prog L = .acquire (.read k)
        · obtain ⟨k, hk⟩ := hr
          rw [hk] at hw
          simp only [Threads.exec, hw, hhold, Except.ok.injEq] at hx
          subst hx
          exact ⟨lin, ops, g, [], h.quiet hw hop (fun _ => rfl) hh' (.reading hk hnl rfl rfl)⟩
        · cases op with
          | forS2A e bytes => exact absurd ⟨_, rfl⟩ hr
          | isFinished => exact absurd ⟨_, rfl⟩ hr
          | createFrameProtector fIn fOut => exact absurd ⟨_, rfl⟩ hr
          | getContext => exact absurd ⟨_, rfl⟩ hr
          | forPeer dec bytes =>
            simp only [Op.prog, forPeerP] at hw
            simp only [Threads.exec, hw, hhold, Except.ok.injEq] at hx
            subst hx
            have hpa := peerAssigns_apply dec bytes g
            have hs : step L g (.forPeer dec bytes) = .ok (applyAll (peerAssigns dec bytes).1 g,
                .forPeer (response dec bytes) (peerAssigns dec bytes).2) := by
              simp only [step, ← hpa]
            refine ⟨_, _, _, (peerAssigns dec bytes).1, h.effect hw hop hnl hs (by rw [hg])
              (fun e => by cases e) hh' (fun t' e he => by rw [hhold] at he; cases he) ?_
              (.writing (List.mem_append_right _ (List.mem_singleton.mpr rfl)) rfl)⟩
            intro t' n' q op' hne hw' hop' _ hf q' hq'
            have hb := h.brought hap hne hw hop hnl hw' hop' hq'.takes hf
            have hsame := applyAll_same (peerAssigns_quiet hb) g
            exact ⟨fun _ _ => peerAssigns_quiet hb, hsame.finished.trans hf, hq'.same hsame⟩
    | reading hk hnl hh hpe =>
      subst hpe
      have hg : g = c.shared := h.sync
      simp only [Threads.exec, hw, Except.ok.injEq] at hx
      subst hx
      simp only at hh
      have hh' : ∀ t', t' ≠ t → (c.holder = some t' ↔ c.holder = some t') := fun _ _ => Iff.rfl
      have hmine : ∀ t', t' ≠ t → c.holder ≠ some t' := by
        intro t' e he
        rw [hh] at he
        exact e (Option.some.inj he).symm
      have hfin : c.holder = none → ([] : List Assign) = [] := fun _ => rfl
      subst hg
      cases op with
      | forS2A e bytes =>
        simp only [Op.prog, forS2AP, Prog.acquire.injEq, Prog.read.injEq] at hk
        subst hk
        have hs : step L c.shared (.forS2A e bytes) = .ok ((getBytesForS2A e c.shared bytes).1,
            .forS2A bytes (getBytesForS2A e c.shared bytes).2.1 (getBytesForS2A e c.shared bytes).2.2) := rfl
        have hq : ∀ a ∈ [Assign.cache (getBytesForS2A e c.shared bytes).1.cache,
            .first (getBytesForS2A e c.shared bytes).1.first], a.Quiet := by
          intro a ha
          simp only [List.mem_cons, List.not_mem_nil, or_false] at ha
          rcases ha with rfl | rfl <;> trivial
        have hg' : (getBytesForS2A e c.shared bytes).1 = applyAll
            [.cache (getBytesForS2A e c.shared bytes).1.cache, .first (getBytesForS2A e c.shared bytes).1.first]
            c.shared := forS2A_members e c.shared bytes
        have hsame := applyAll_same hq c.shared
        rw [← hg'] at hsame
        refine ⟨_, _, _, _, h.effect hw hop hnl hs hg'
          (fun e => by rw [hh] at e; cases e) hh' (fun t' e he => absurd he (hmine t' e)) ?_
          (.writing (List.mem_append_right _ (List.mem_singleton.mpr rfl)) hh)⟩
        intro t' n' q op' hne hw' hop' _ hf q' hq'
        exact ⟨fun _ _ => hq, hsame.finished.trans hf, hq'.same hsame⟩
      | forPeer dec bytes =>
        simp only [Op.prog, forPeerP, Prog.acquire.injEq] at hk
        generalize (peerAssigns dec bytes).1 = as at hk
        cases as <;> cases hk
      | isFinished =>
        simp only [Op.prog, askFinished, Prog.acquire.injEq, Prog.read.injEq] at hk
        subst hk
        exact ⟨_, _, _, [], h.effect hw hop hnl rfl rfl (fun _ => rfl) hh'
          (fun t' e he => absurd he (hmine t' e))
          (fun _ _ _ _ _ _ _ _ hf _ hq => ⟨fun _ hp => hp, hf, hq⟩)
          (.writing (List.mem_append_right _ (List.mem_singleton.mpr rfl)) hh)⟩
      | createFrameProtector fIn fOut =>
        simp only [Op.prog, createP, askFinished, Prog.acquire.injEq, Prog.read.injEq] at hk
        subst hk
        by_cases hf : c.shared.finished = true
        · refine ⟨lin, ops, c.shared, [], h.quiet hw hop (fun _ => rfl) hh' (.passed hnl hh rfl hf ?_)⟩
          rw [if_pos (show isHandshakeFinished c.shared = true from hf)]
          exact .gather (fun r _ => rfl) (fun _ => by simp [resultMembers])
        · simp only
          rw [if_neg (show ¬ isHandshakeFinished c.shared = true from hf)]
          have hf := eq_false_of_ne_true hf
          have hs : step L c.shared (.createFrameProtector fIn fOut) =
              .ok (c.shared, .createFrameProtector (.error .failedPrecondition)) := by
            simp only [step, createFrameProtector, hf, Bool.not_false, if_true, exec_bind_ok]
            rfl
          exact ⟨_, _, _, [], h.effect hw hop hnl hs rfl (fun _ => rfl) hh'
            (fun t' e he => absurd he (hmine t' e))
            (fun _ _ _ _ _ _ _ _ hf _ hq => ⟨fun _ hp => hp, hf, hq⟩)
            (.writing (List.mem_append_right _ (List.mem_singleton.mpr rfl)) hh)⟩
      | getContext =>
        simp only [Op.prog, getContextP, askFinished, Prog.acquire.injEq, Prog.read.injEq] at hk
        subst hk
        by_cases hf : c.shared.finished = true
        · refine ⟨lin, ops, c.shared, [], h.quiet hw hop (fun _ => rfl) hh' (.passed hnl hh rfl hf ?_)⟩
          rw [if_pos (show isHandshakeFinished c.shared = true from hf)]
          exact .context
        · simp only
          rw [if_neg (show ¬ isHandshakeFinished c.shared = true from hf)]
          have hf := eq_false_of_ne_true hf
          have hs : step L c.shared .getContext = .ok (c.shared, .getContext (.error .failedPrecondition)) := by
            simp only [step, getS2AContext, hf, Bool.not_false, if_true]
          exact ⟨_, _, _, [], h.effect hw hop hnl hs rfl (fun _ => rfl) hh'
            (fun t' e he => absurd he (hmine t' e))
            (fun _ _ _ _ _ _ _ _ hf _ hq => ⟨fun _ hp => hp, hf, hq⟩)
            (.writing (List.mem_append_right _ (List.mem_singleton.mpr rfl)) hh)⟩
    | writing hl hh =>
      simp only at hh
      have hmine : ∀ t', t' ≠ t → c.holder ≠ some t' := by
        intro t' e he
        rw [hh] at he
        exact e (Option.some.inj he).symm
      cases pend with
      | nil =>
        simp only [Prog.writes, List.foldr_nil] at hw
        simp only [Threads.exec, hw, Except.ok.injEq] at hx
        subst hx
        refine ⟨lin, ops, g, [], h.quiet hw hop (fun _ => rfl) ?_ (.returning hl (by simp))⟩
        intro t' e
        simp only [reduceCtorEq, false_iff]
        exact hmine t' e
      | cons a as =>
        simp only [Prog.writes, List.foldr_cons] at hw
        simp only [Threads.exec, hw, Except.ok.injEq] at hx
        subst hx
        refine ⟨lin, ops, g, as, h.internal hw hop h.order h.sync
          (fun e => by rw [hh] at e; cases e) (fun _ hy => hy) (fun _ hy => .inl hy)
          (fun _ _ => Iff.rfl) (fun t' e he => absurd he (hmine t' e)) ?_ (.writing hl hh)⟩
        intro t' n' q op' hne hw' hop' _ hf q' hq'
        exact ⟨fun _ hp b hb => hp b (List.mem_cons_of_mem _ hb), hf, hq'⟩
    | returning hl hh =>
      rename_i ev
      simp only [Threads.exec, hw, Except.ok.injEq] at hx
      subst hx
      have hkeep : ∀ t' m, Obs.invoked (t', m) ∉ c.log →
          Obs.invoked (t', m) ∉ c.log ++ [.returned (t, n) ev] := by
        intro t' m hm hmem
        simp only [List.mem_append, List.mem_singleton, reduceCtorEq, or_false] at hmem
        exact hm hmem
      refine ⟨lin, ops, g, pend, h.order.return hl, h.sync, h.free, ?_, ?_⟩
      · intro t' m hm
        by_cases e : t' = t
        · subst e
          simp only [moved_self, Where.idle.injEq] at hm
          subst hm
          exact ⟨hh, fun k hk => hkeep _ k (hlast k (by omega))⟩
        · simp only [moved_other _ _ e] at hm
          obtain ⟨a1, a2⟩ := h.idle t' m hm
          exact ⟨a1, fun k hk => hkeep t' k (a2 k hk)⟩
      · intro t' m q hm
        by_cases e : t' = t
        · subst e
          simp only [moved_self, reduceCtorEq] at hm
        · simp only [moved_other _ _ e] at hm
          obtain ⟨a1, a2, a3⟩ := h.inside t' m q hm
          exact ⟨List.mem_append_left _ a1, fun k hk => hkeep t' k (a2 k hk), a3⟩
    | passed hnl hh hpe hf ha =>
      subst hpe
      simp only at hh
      simp only [Threads.exec, hw, Except.ok.injEq] at hx
      subst hx
      refine ⟨lin, ops, g, [], h.quiet hw hop (fun _ => rfl) ?_
        (.after hnl (by simp) (fun a ha => by simp at ha) hf ha)⟩
      intro t' e
      simp only [reduceCtorEq, false_iff]
      intro he
      rw [hh] at he
      exact e (Option.some.inj he).symm
    | after hnl hh hq hf ha =>
      simp only at hh
      have hsame : Same c.shared g := by
        rw [h.sync]; exact applyAll_same hq c.shared
      have hh' : ∀ t', t' ≠ t → (c.holder = some t' ↔ c.holder = some t') := fun _ _ => Iff.rfl
      cases ha with
      | gather hs hn =>
        rename_i fIn fOut fs acc
        cases fs with
        | nil =>
          simp only [readResult, moveFactory] at hw
          simp only [Threads.exec, hw, Except.ok.injEq] at hx
          subst hx
          have hr : g.result = some acc := by
            cases hg : g.result with
            | none => exact absurd rfl (hn hg)
            | some r => exact congrArg some (hs r hg).symm
          refine ⟨lin, ops, g, pend, h.quiet hw hop h.free hh' (.after hnl hh hq hf ?_)⟩
          rw [← frameOptions_congr hsame.options hsame.hasFactory]
          exact .factory hr
        | cons f fs =>
          simp only [readResult] at hw
          simp only [Threads.exec, hw, Except.ok.injEq] at hx
          subst hx
          refine ⟨lin, ops, g, pend, h.quiet hw hop h.free hh' (.after hnl hh hq hf ?_)⟩
          cases hr : c.shared.result with
          | none => exact .fault (hsame.result.trans hr)
          | some r =>
            have hgr := hsame.result.trans hr
            refine .gather (fun r' hr' => ?_) (fun e => by rw [hgr] at e; cases e)
            rw [hgr] at hr'
            cases hr'
            exact hs r hgr
      | factory hr =>
        rename_i fIn fOut r
        simp only [Threads.exec, hw, Except.ok.injEq] at hx
        subst hx
        obtain ⟨fp, hfp⟩ := frame_create_ok L fIn fOut (frameOptions g r)
        have hend : createEnd L fIn fOut (frameOptions g r) = .done (.createFrameProtector fp) := by
          simp only [createEnd, hfp]
        rw [hend]
        have hs : step L g (.createFrameProtector fIn fOut) =
            .ok (Assign.noFactory.apply g, .createFrameProtector fp) := by
          have : createFrameProtector L fIn fOut g = .ok ({ g with hasFactory := false }, fp) := by
            unfold createFrameProtector
            rw [hf, hr]
            simp only [Bool.not_true, Bool.false_eq_true, if_false, hfp, exec_bind_ok]
            rfl
          simp only [step, this, exec_bind_ok]
          rfl
        refine ⟨_, _, _, pend, h.effect hw hop hnl hs
          (by rw [applyAll_noFactory hq, ← h.sync]) h.free hh' (fun _ _ _ => rfl) ?_
          (.returning (List.mem_append_right _ (List.mem_singleton.mpr rfl)) hh)⟩
        intro t' n' q op' hne hw' hop' _ hf' q' hq'
        refine ⟨fun _ hp => hp, hf', ?_⟩
        have hap' := (hap t' t n' n _ _ op' _ hne hw' hw hop' hop).1
        cases hq' with
        | gather _ _ => exact absurd ⟨rfl, rfl⟩ hap'
        | factory _ => exact absurd ⟨rfl, rfl⟩ hap'
        | fault _ => exact absurd ⟨rfl, rfl⟩ hap'
        | context => exact .context
        | taken => exact .taken (g := Assign.noFactory.apply g)
      | fault hr =>
        simp only [Threads.exec, hw] at hx
        cases hx
      | context =>
        simp only [Threads.exec, hw, Except.ok.injEq] at hx
        subst hx
        refine ⟨lin, ops, g, pend, h.quiet hw hop h.free hh' (.after hnl hh hq hf ?_)⟩
        rw [← hsame.context]
        exact .taken
      | taken =>
        simp only [Threads.exec, hw, Except.ok.injEq] at hx
        subst hx
        have hs : step L g .getContext =
            .ok ((Assign.context none).apply g, .getContext (.ok g.context)) := by
          have : getS2AContext g = ({ g with context := none }, .ok g.context) := by
            unfold getS2AContext
            rw [if_neg (by rw [hf]; simp)]
          simp only [step, this]
          rfl
        refine ⟨_, _, _, pend, h.effect hw hop hnl hs
          (by rw [applyAll_noContext hq, ← h.sync]) h.free hh' (fun _ _ _ => rfl) ?_
          (.returning (List.mem_append_right _ (List.mem_singleton.mpr rfl)) hh)⟩
        intro t' n' q op' hne hw' hop' _ hf' q' hq'
        refine ⟨fun _ hp => hp, hf', ?_⟩
        have hap' := (hap t' t n' n _ _ op' _ hne hw' hw hop' hop).2.1
        cases hq' with
        | gather a b => exact .gather (g := (Assign.context none).apply g) a b
        | factory a => exact .factory (g := (Assign.context none).apply g) a
        | fault a => exact .fault (g := (Assign.context none).apply g) a
        | context => exact absurd ⟨rfl, rfl⟩ hap'
        | taken => exact absurd ⟨rfl, rfl⟩ hap'

theorem TInv.run {L : Lib} {calls : T → List Op} {s0 : State} {sched : List T}
    {c c' : Threads T} {lin ops g pend} (h : TInv L calls s0 c lin ops g pend)
    (hmode : Exclusive L calls c sched) (hx : c.run L calls sched = .ok c') :
    ∃ lin' ops' g' pend', TInv L calls s0 c' lin' ops' g' pend' := by
  induction sched generalizing c lin ops g pend with
  | nil =>
    cases hx
    exact ⟨lin, ops, g, pend, h⟩
  | cons t ts ih =>
    simp only [Threads.run] at hx
    obtain ⟨c1, h1, h2⟩ := HalfConn.exec_bind_eq_ok.mp hx
    have hnext : Exclusive L calls c1 ts := by
      intro pre c2 hpre hrun
      refine hmode (t :: pre) c2 ?_ ?_
      · obtain ⟨r, rfl⟩ := hpre; exact ⟨r, rfl⟩
      · simp only [Threads.run, h1, exec_bind_ok]; exact hrun
    obtain ⟨lin', ops', g', pend', h'⟩ := h.exec (hmode [] c (List.nil_prefix) rfl) h1
    exact ih h' hnext h2

theorem TInv.linearizes {L : Lib} {calls : T → List Op} {s0 : State} {c : Threads T}
    {lin ops g pend} (h : TInv L calls s0 c lin ops g pend) :
    Linearizes L calls s0 c (lin.map (·.1)) where
  nodup := h.order.nodup
  began := h.order.began
  realTime := h.order.realTime
  sequential := by
    refine ⟨ops, g, lin.map (·.2), h.order.ops_eq, h.order.runs, ?_, ?_⟩
    · intro x ev hx
      rw [zip_unzip']
      exact h.order.ret x ev hx
    · intro hidle
      have : c.holder = none := by
        cases hc : c.holder with
        | none => rfl
        | some t =>
          obtain ⟨n, hn⟩ := hidle t
          exact absurd hc (h.idle t n hn).1
      have hs := h.sync
      rw [h.free this] at hs
      exact hs.symm

/-! ### Undefined behaviour -/

theorem exec_error {L : Lib} {calls : T → List Op} {c : Threads T} {t : T} {e : UB}
    (h : c.exec L calls t = .error e) : ∃ n, c.place t = .inside n (.ub e) := by
  cases hw : c.place t with
  | idle n =>
    simp only [Threads.exec, hw] at h
    split at h <;> cases h
  | inside n p =>
    refine ⟨n, ?_⟩
    cases p <;> simp only [Threads.exec, hw] at h
    case ub e' => cases h; rfl
    case acquire k => split at h <;> cases h
    all_goals cases h

/-- If a step goes wrong, calls made one after the other go wrong. -/
theorem TInv.exec_error {L : Lib} {calls : T → List Op} {s0 : State} {c : Threads T}
    {lin ops g pend} (h : TInv L calls s0 c lin ops g pend) {t : T} {e : UB}
    (hx : c.exec L calls t = .error e) : FaultsSequentially L calls s0 c e := by
  obtain ⟨n, hw⟩ := Proxy.exec_error hx
  obtain ⟨hlog, _, op, hop, hst⟩ := h.inside t n _ hw
  have key : ∃ x, x = Prog.ub e ∧ Stage L lin g pend c.holder (t, n) op x := ⟨_, rfl, hst⟩
  obtain ⟨x, hxe, hst⟩ := key
  cases hst with
  | fresh => cases op <;> cases hxe
  | reading => cases hxe
  | writing => cases pend <;> cases hxe
  | returning => cases hxe
  | passed => cases hxe
  | after hnl hh hq hf ha =>
    cases ha with
    | gather a b =>
      rename_i fs acc
      cases fs <;> cases hxe
    | factory => cases hxe
    | context => cases hxe
    | taken => cases hxe
    | fault hr =>
      cases hxe
      rename_i fIn fOut
      refine ⟨lin.map (·.1) ++ [(t, n)], ops ++ [.createFrameProtector fIn fOut], ?_, ?_, ?_, ?_, ?_⟩
      · refine List.nodup_append.mpr ⟨h.order.nodup, by simp, ?_⟩
        intro a ha b hb
        simp only [List.mem_singleton] at hb
        subst hb
        rintro rfl
        exact hnl ha
      · intro x hx
        rw [List.mem_append] at hx
        rcases hx with hx | hx
        · exact h.order.began x hx
        · simp only [List.mem_singleton] at hx
          subst hx; exact hlog
      · intro a b hab hb
        rw [List.mem_append] at hb
        rcases hb with hb | hb
        · exact earlier_snoc _ (h.order.realTime a b hab hb)
        · simp only [List.mem_singleton] at hb
          subst hb
          obtain ⟨e, he⟩ := precedes_returned hab
          exact earlier_last _ (List.mem_map.mpr ⟨_, h.order.ret _ _ he, rfl⟩)
      · simp only [List.map_append, List.map_cons, List.map_nil, hop]
        rw [← h.order.ops_eq, List.map_map]
      · refine run_append_error h.order.runs ?_
        simp only [Proxy.run, step, createFrameProtector, hf, Bool.not_true, Bool.false_eq_true,
          if_false, hr]
        rfl

/-- A run that goes wrong goes wrong at a step. -/
theorem run_error {L : Lib} {calls : T → List Op} {sched : List T}
    {c : Threads T} {e : UB} (h : c.run L calls sched = .error e) :
    ∃ pre t c', pre ++ [t] <+: sched ∧ c.run L calls pre = .ok c' ∧
      c'.exec L calls t = .error e := by
  induction sched generalizing c with
  | nil => cases h
  | cons t ts ih =>
    simp only [Threads.run] at h
    cases hx : c.exec L calls t with
    | error e' =>
      rw [hx] at h; cases h
      exact ⟨[], t, c, ⟨ts, rfl⟩, rfl, hx⟩
    | ok c1 =>
      rw [hx] at h
      obtain ⟨pre, t', c', ⟨r, hr⟩, h1, h2⟩ := ih h
      refine ⟨t :: pre, t', c', ⟨r, by rw [← hr]; rfl⟩, ?_, h2⟩
      simp only [Threads.run, hx, exec_bind_ok]; exact h1

/-! ### The mutex -/

/-- The program of a thread that has the mutex (`true`) or not: it locks it only if it does not have
it, and gives it back before it returns. -/
inductive Prog.Locked : Bool → Prog → Prop
  | done (ev : Event) : Locked false (.done ev)
  | ub (b : Bool) (e : UB) : Locked b (.ub e)
  | acquire {k : Prog} (h : Locked true k) : Locked false (.acquire k)
  | release {k : Prog} (h : Locked false k) : Locked true (.release k)
  | read {b : Bool} {k : State → Prog} (h : ∀ s, Locked b (k s)) : Locked b (.read k)
  | write {b : Bool} {a : Assign} {k : Prog} (h : Locked b k) : Locked b (.write a k)

theorem Prog.Locked.writes {b : Bool} {k : Prog} (h : Locked b k) (as : List Assign) :
    Locked b (.writes as k) := by
  induction as with
  | nil => exact h
  | cons a as ih => exact .write ih

theorem Prog.Locked.readResult {b : Bool} {k : HsResult → Prog} (h : ∀ r, Locked b (k r))
    (fs : List (HsResult → HsResult → HsResult)) (acc : HsResult) :
    Locked b (readResult k fs acc) := by
  induction fs generalizing acc with
  | nil => exact h acc
  | cons f fs ih =>
    refine .read fun s => ?_
    cases s.result with
    | none => exact .ub _ _
    | some r => exact ih _

theorem Op.locked (L : Lib) (op : Op) : (op.prog L).Locked false := by
  cases op with
  | forS2A e bytes =>
    exact .acquire (.read fun s => .write (.write (.release (.done _))))
  | forPeer dec bytes => exact .acquire (.writes (.release (.done _)) _)
  | isFinished => exact .acquire (.read fun s => .release (.done _))
  | createFrameProtector fIn fOut =>
    refine .acquire (.read fun s => .release ?_)
    simp only
    split
    · refine .readResult (fun r => .read fun s => .write ?_) _ _
      unfold createEnd
      split
      · exact .done _
      · exact .ub _ _
    · exact .done _
  | getContext =>
    refine .acquire (.read fun s => .release ?_)
    simp only
    split
    · exact .read fun s => .write (.done _)
    · exact .done _

/-- Every thread keeps to it. -/
def LockOk (c : Threads T) : Prop :=
  ∀ t, match c.place t with
    | .idle _ => c.holder ≠ some t
    | .inside _ p => p.Locked (c.holder == some t)

theorem LockOk.exec {L : Lib} {calls : T → List Op} {c c' : Threads T} (h : LockOk c) {t : T}
    (hx : c.exec L calls t = .ok c') : LockOk c' := by
  have key : ∀ (shared : State) (holder : Option T) (w : Where) (log : List (Obs T)),
      (∀ t', t' ≠ t → (holder = some t' ↔ c.holder = some t')) →
      (match w with
        | .idle _ => holder ≠ some t
        | .inside _ p => p.Locked (holder == some t)) →
      LockOk ⟨shared, holder, moved c.place t w, log⟩ := by
    intro shared holder w log hh hw t'
    by_cases e : t' = t
    · subst e; simp only [moved_self]; exact hw
    · simp only [moved_other _ _ e]
      have := h t'
      have hb : (holder == some t') = (c.holder == some t') := by
        rw [Bool.eq_iff_iff, beq_iff_eq, beq_iff_eq]; exact hh t' e
      cases hp : c.place t' with
      | idle n => rw [hp] at this; exact fun e' => this ((hh t' e).mp e')
      | inside n p => rw [hp] at this; simp only [hb]; exact this
  have hself := h t
  cases hw : c.place t with
  | idle n =>
    rw [hw] at hself
    simp only at hself
    cases hop : (calls t)[n]? with
    | none =>
      simp only [Threads.exec, hw, hop, Except.ok.injEq] at hx
      subst hx; exact h
    | some op =>
      simp only [Threads.exec, hw, hop, Except.ok.injEq] at hx
      subst hx
      refine key _ _ _ _ (fun _ _ => Iff.rfl) ?_
      simp only [beq_eq_false_iff_ne.mpr hself]
      exact op.locked L
  | inside n p =>
    rw [hw] at hself
    simp only at hself
    cases p with
    | done ev =>
      simp only [Threads.exec, hw, Except.ok.injEq] at hx
      subst hx
      refine key _ _ _ _ (fun _ _ => Iff.rfl) ?_
      generalize hb : (c.holder == some t) = b at hself
      cases hself
      exact beq_eq_false_iff_ne.mp hb
    | ub e => simp only [Threads.exec, hw] at hx; cases hx
    | acquire k =>
      cases hc : c.holder with
      | some t0 =>
        simp only [Threads.exec, hw, hc, Except.ok.injEq] at hx
        subst hx; exact h
      | none =>
        simp only [Threads.exec, hw, hc, Except.ok.injEq] at hx
        subst hx
        refine key _ _ _ _ ?_ ?_
        · intro t' e
          rw [hc]
          simp only [Option.some.injEq, reduceCtorEq, iff_false]
          exact fun e' => e e'.symm
        · generalize (c.holder == some t) = b at hself
          cases hself
          simp only [beq_self_eq_true]
          assumption
    | release k =>
      simp only [Threads.exec, hw, Except.ok.injEq] at hx
      subst hx
      generalize hb : (c.holder == some t) = b at hself
      cases hself
      have hc := beq_iff_eq.mp hb
      refine key _ _ _ _ ?_ ?_
      · intro t' e
        rw [hc]
        simp only [Option.some.injEq, reduceCtorEq, false_iff]
        exact fun e' => e e'.symm
      · simp only [show ((none : Option T) == some t) = false from rfl]
        assumption
    | read k =>
      simp only [Threads.exec, hw, Except.ok.injEq] at hx
      subst hx
      refine key _ _ _ _ (fun _ _ => Iff.rfl) ?_
      generalize (c.holder == some t) = b at hself
      cases hself
      rename_i hk
      exact hk _
    | write a k =>
      simp only [Threads.exec, hw, Except.ok.injEq] at hx
      subst hx
      refine key _ _ _ _ (fun _ _ => Iff.rfl) ?_
      generalize (c.holder == some t) = b at hself
      cases hself
      assumption

theorem LockOk.run {L : Lib} {calls : T → List Op} {sched : List T} {c c' : Threads T}
    (h : LockOk c) (hx : c.run L calls sched = .ok c') : LockOk c' := by
  induction sched generalizing c with
  | nil => cases hx; exact h
  | cons t ts ih =>
    simp only [Threads.run] at hx
    obtain ⟨c1, h1, h2⟩ := HalfConn.exec_bind_eq_ok.mp hx
    exact ih (h.exec h1) h2

theorem run_cons {L : Lib} {calls : T → List Op} {c c1 : Threads T} {t : T} {ts : List T}
    (h : c.exec L calls t = .ok c1) : c.run L calls (t :: ts) = c1.run L calls ts := by
  simp only [Threads.run, h, exec_bind_ok]

/-- A thread goes through to the end of its call, alone. -/
def Ends (L : Lib) (calls : T → List Op) (t : T) (n : Nat) (c : Threads T) : Prop :=
  ∃ k, (∃ e, c.run L calls (List.replicate k t) = .error e) ∨
    ∃ c', c.run L calls (List.replicate k t) = .ok c' ∧ c'.place t = .idle (n + 1) ∧
      c'.holder = none ∧ ∀ t', t' ≠ t → c'.place t' = c.place t'

theorem Ends.before {L : Lib} {calls : T → List Op} {t : T} {n : Nat} {c : Threads T}
    {sh : State} {ho : Option T} {w : Where} {log : List (Obs T)}
    (hx : c.exec L calls t = .ok ⟨sh, ho, moved c.place t w, log⟩)
    (h : Ends L calls t n ⟨sh, ho, moved c.place t w, log⟩) : Ends L calls t n c := by
  obtain ⟨k, hk⟩ := h
  refine ⟨k + 1, ?_⟩
  rw [List.replicate_succ, run_cons hx]
  rcases hk with ⟨e, he⟩ | ⟨c', h1, h2, h3, h4⟩
  · exact .inl ⟨e, he⟩
  · exact .inr ⟨c', h1, h2, h3, fun t' e => (h4 t' e).trans (moved_other _ _ e)⟩

/-- A thread that has the mutex, or can have it, goes through to the end of its call. -/
theorem ends_alone {L : Lib} {calls : T → List Op} {t : T} {n : Nat} {p : Prog}
    {c : Threads T} {b : Bool} (hl : p.Locked b) (hh : c.holder = (if b then some t else none))
    (hw : c.place t = .inside n p) : Ends L calls t n c := by
  induction p generalizing c b with
  | done ev =>
    cases hl
    refine .before (by simp only [Threads.exec, hw]; rfl) ⟨0, .inr ⟨_, rfl, moved_self .., hh, fun _ _ => rfl⟩⟩
  | ub e =>
    refine ⟨1, .inl ⟨e, ?_⟩⟩
    simp only [List.replicate_succ, List.replicate_zero, Threads.run, Threads.exec, hw]
    rfl
  | acquire k ih =>
    cases hl with
    | acquire hl =>
      have hh : c.holder = none := hh
      exact .before (by simp only [Threads.exec, hw, hh]; rfl) (ih hl rfl (moved_self ..))
  | release k ih =>
    cases hl with
    | release hl => exact .before (by simp only [Threads.exec, hw]; rfl) (ih hl rfl (moved_self ..))
  | read k ih =>
    cases hl with
    | read hl =>
      exact .before (by simp only [Threads.exec, hw]; rfl) (ih _ (hl _) hh (moved_self ..))
  | write a k ih =>
    cases hl with
    | write hl => exact .before (by simp only [Threads.exec, hw]; rfl) (ih hl hh (moved_self ..))

theorem run_append_sched {L : Lib} {calls : T → List Op} {s1 s2 : List T} {c c1 : Threads T}
    (h : c.run L calls s1 = .ok c1) : c.run L calls (s1 ++ s2) = c1.run L calls s2 := by
  induction s1 generalizing c with
  | nil => cases h; rfl
  | cons t ts ih =>
    simp only [Threads.run] at h
    obtain ⟨c2, h1, h2⟩ := HalfConn.exec_bind_eq_ok.mp h
    rw [List.cons_append, run_cons h1]
    exact ih h2

/-- Every call that has begun can return. -/
theorem LockOk.leads {L : Lib} {calls : T → List Op} {c : Threads T} (h : LockOk c) {t : T} {n : Nat}
    {p : Prog} (hw : c.place t = .inside n p) :
    ∃ more, (∃ e, c.run L calls more = .error e) ∨
      ∃ c', c.run L calls more = .ok c' ∧ c'.place t = .idle (n + 1) := by
  have mine : ∀ {c : Threads T}, LockOk c → c.holder = none → c.place t = .inside n p →
      ∃ more, (∃ e, c.run L calls more = .error e) ∨
        ∃ c', c.run L calls more = .ok c' ∧ c'.place t = .idle (n + 1) := by
    intro c h hc hw
    have ht := h t
    rw [hw, hc] at ht
    obtain ⟨k, hk⟩ := ends_alone (L := L) (calls := calls) (b := false) ht hc hw
    rcases hk with he | ⟨c', h1, h2, _⟩
    · exact ⟨_, .inl he⟩
    · exact ⟨_, .inr ⟨c', h1, h2⟩⟩
  cases hc : c.holder with
  | none => exact mine h hc hw
  | some t0 =>
    have h0 := h t0
    cases hw0 : c.place t0 with
    | idle m => rw [hw0] at h0; exact absurd hc h0
    | inside m p0 =>
      rw [hw0] at h0
      simp only [hc, beq_self_eq_true] at h0
      obtain ⟨k, hk⟩ := ends_alone (L := L) (calls := calls) (b := true) h0 hc hw0
      rcases hk with he | ⟨c', h1, h2, h3, h4⟩
      · exact ⟨_, .inl he⟩
      · by_cases e : t = t0
        · subst e
          rw [hw] at hw0
          cases hw0
          exact ⟨_, .inr ⟨c', h1, h2⟩⟩
        · obtain ⟨more, hm⟩ := mine (h.run h1) h3 ((h4 t e).trans hw)
          refine ⟨List.replicate k t0 ++ more, ?_⟩
          rw [run_append_sched h1]
          exact hm

end S2A.Proxy
