import Verif.Lemmas.Proxy
import Verif.Lemmas.RecordHist
/-
What the proxy keeps of the results it received, complete or not.
-/
namespace S2A.Proxy
open Proto Util
open Spec (carried results lastStated IsComplete Waiting)
open HalfConn (exec_bind_eq_ok)

/-- What is kept of a result with the session state `st`. -/
def kept (r : SessionResult) (st : SessionState) : HsResult :=
  match tlsVersionFromProto st.tlsVersion with
  | .error _ => HsResult.fresh
  | .ok v =>
    match ciphersuiteFromProto st.ciphersuite with
    | .error _ => { HsResult.fresh with tlsVersion := v }
    | .ok cs =>
      match r.localIdentity with
      | none => ⟨v, cs, st.inKey, st.outKey, .ofNat st.inSequence, .ofNat st.outSequence, 0, .empty⟩
      | some li => ⟨v, cs, st.inKey, st.outKey, .ofNat st.inSequence, .ofNat st.outSequence,
          .ofNat st.connectionId, Spec.identityOf (some li)⟩

/-- The result kept from the last one that had a session state. -/
def keptOf : Option SessionResult → Option HsResult
  | none => none
  | some r => r.state.map (kept r)

theorem handleResult_result (s : State) (r : SessionResult) :
    (handleResult s r).1.result = match r.state with
      | none => s.result
      | some st => some (kept r st) := by
  unfold handleResult kept
  cases r.state with
  | none => rfl
  | some st =>
    simp only []
    cases tlsVersionFromProto st.tlsVersion with
    | error c => rfl
    | ok v =>
      cases ciphersuiteFromProto st.ciphersuite with
      | error c => rfl
      | ok cs =>
        cases r.localIdentity with
        | none => rfl
        | some li => simp only [identityFromProto_eq]

theorem handleResult_code (s : State) (r : SessionResult) :
    ∀ c, (handleResult s r).2 = some c → c ≠ .ok := by
  unfold handleResult
  cases r.state with
  | none => rintro c ⟨⟩; decide
  | some st =>
    simp only []
    cases hv : tlsVersionFromProto st.tlsVersion with
    | error c =>
      rintro c' ⟨⟩
      unfold tlsVersionFromProto at hv
      split at hv <;> cases hv <;> decide
    | ok v =>
      cases hcs : ciphersuiteFromProto st.ciphersuite with
      | error c =>
        rintro c' ⟨⟩
        unfold ciphersuiteFromProto at hcs
        split at hcs <;> cases hcs <;> decide
      | ok cs =>
        cases r.localIdentity with
        | none => rintro c ⟨⟩; decide
        | some li => rintro c ⟨⟩

/-- A result that is not complete does not change the context. -/
theorem handleResult_context {s : State} {r : SessionResult} (h : ¬ IsComplete r) :
    (handleResult s r).1.context = s.context := by
  unfold handleResult
  cases hs : r.state with
  | none => rfl
  | some st =>
    simp only []
    cases hv : tlsVersionFromProto st.tlsVersion with
    | error c => rfl
    | ok v =>
      cases hc : ciphersuiteFromProto st.ciphersuite with
      | error c => rfl
      | ok cs =>
        cases hl : r.localIdentity with
        | none => rfl
        | some li =>
          exact absurd ⟨st, li, v, cs, hs, tlsVersionFromProto_ok.1 hv,
            ciphersuiteFromProto_ok.1 hc, hl⟩ h

/-- A call that brings a result. -/
theorem step_result {L : Lib} {s s' : State} {op : Op} {ev : Event} {r : SessionResult}
    (hs : Proxy.step L s op = .ok (s', ev)) (hr : carried ev = some r) :
    (∀ c, ev ≠ .getContext c) ∧
    s'.result = (match r.state with
      | none => s.result
      | some st => some (kept r st)) ∧
    (¬ IsComplete r → s'.context = s.context) := by
  cases op with
  | forS2A e bytes => cases hs; cases hr
  | isFinished => cases hs; cases hr
  | createFrameProtector fIn fOut =>
    simp only [Proxy.step, exec_bind_eq_ok] at hs
    obtain ⟨⟨s1, p⟩, h1, h2⟩ := hs
    cases h2; cases hr
  | getContext => simp only [Proxy.step] at hs; cases hs; cases hr
  | forPeer dec bytes =>
    simp only [Proxy.step] at hs
    cases hs
    by_cases hb : ∀ resp, response dec bytes = some resp → ¬ Spec.Good resp
    · rw [(carried_bad hb).1] at hr; cases hr
    · simp only [Classical.not_forall, Classical.not_not] at hb
      obtain ⟨resp, h1, h2⟩ := hb
      rw [carried_eq h1 h2] at hr
      rw [getBytesForPeer_good h1 h2, hr]
      simp only []
      have f1 : (select s resp).result = s.result := by rw [select_frame]
      have f2 : (select s resp).context = s.context := by rw [select_frame]
      generalize hq : ({ select s resp with finished := true } : State) = q
      have e1 := handleResult_result q r
      have e2 : ¬ IsComplete r → _ := handleResult_context (s := q) (r := r)
      rw [show q.result = s.result by rw [← hq]; exact f1] at e1
      rw [show q.context = s.context by rw [← hq]; exact f2] at e2
      generalize handleResult q r = x at e1 e2 ⊢
      obtain ⟨x1, x2⟩ := x
      refine ⟨by simp, ?_⟩
      cases x2 <;> exact ⟨e1, e2⟩

theorem results_snoc (evs : List Event) (ev : Event) :
    results (evs ++ [ev]) = results evs ++ (carried ev).toList := by
  unfold results
  rw [List.filterMap_append]
  cases h : carried ev <;> simp [h]

theorem lastStated_snoc (evs : List Event) (ev : Event) :
    lastStated (evs ++ [ev]) = match carried ev with
      | none => lastStated evs
      | some r => if r.state.isSome then some r else lastStated evs := by
  unfold lastStated
  rw [results_snoc]
  cases h : carried ev with
  | none => simp
  | some r =>
    simp only [Option.toList_some, List.filter_append]
    cases hs : r.state <;> simp [hs]

theorem Reach.result {L : Lib} {o : Options} {s : State} {evs : List Event}
    (h : Reach L o s evs) : s.result = keptOf (lastStated evs) := by
  refine h.induction (P := fun s evs => s.result = keptOf (lastStated evs)) ?_ ?_
  · intro s hs
    unfold create at hs
    split at hs
    · cases hs
    · cases hs
    · cases hs; rfl
  · intro s evs op s' ev ih hs
    rw [lastStated_snoc]
    cases hr : carried ev with
    | none => rw [(step_keeps hs hr).1]; exact ih
    | some r =>
      rw [(step_result hs hr).2.1]
      cases hst : r.state with
      | none => simpa [hst] using ih
      | some st => simp [keptOf, hst]

theorem lastStated_state {evs : List Event} {r : SessionResult} (h : lastStated evs = some r) :
    ∃ st, r.state = some st := by
  have := List.mem_of_getLast? h
  rw [List.mem_filter] at this
  exact Option.isSome_iff_exists.1 this.2

theorem finished_iff_results {L : Lib} {o : Options} {s : State} {evs : List Event}
    (h : Reach L o s evs) : s.finished = true ↔ results evs ≠ [] := by
  rw [h.inv.finished]
  unfold results
  rw [ne_eq, List.filterMap_eq_nil_iff]
  simp only [Classical.not_forall, Option.isSome_iff_ne_none]
  constructor
  · rintro ⟨ev, h1, h2⟩; exact ⟨ev, h1, h2⟩
  · rintro ⟨ev, h1, h2⟩; exact ⟨ev, h1, h2⟩

/-! ### The context -/

theorem Waiting.snoc {evs : List Event} {ev : Event} {ctx : Context}
    (hg : ∀ c, ev ≠ .getContext c) (hn : ∀ r, carried ev = some r → ¬ IsComplete r) :
    Waiting (evs ++ [ev]) ctx ↔ Waiting evs ctx := by
  constructor
  · rintro ⟨pre, x, post, r, st, li, v, cs, h1, h2, h3, h4, h5⟩
    rcases List.eq_nil_or_concat post with rfl | ⟨post, y, rfl⟩
    · have h1 : evs ++ [ev] = pre ++ [x] := h1
      obtain ⟨rfl, hx⟩ := List.append_inj' h1 rfl
      cases hx
      exact absurd ⟨st, li, v, cs, h3⟩ (hn r h2)
    · rw [List.concat_eq_append, ← List.cons_append, ← List.append_assoc] at h1
      obtain ⟨rfl, hx⟩ := List.append_inj' h1 rfl
      exact ⟨pre, x, post, r, st, li, v, cs, rfl, h2, h3, h4,
        fun y hy => h5 y (by rw [List.concat_eq_append]; simp [hy])⟩
  · rintro ⟨pre, x, post, r, st, li, v, cs, rfl, h2, h3, h4, h5⟩
    refine ⟨pre, x, post ++ [ev], r, st, li, v, cs, by simp, h2, h3, h4, ?_⟩
    intro y hy
    rcases List.mem_append.1 hy with hy | hy
    · exact h5 y hy
    · rw [List.mem_singleton] at hy
      subst hy
      exact ⟨hg, hn⟩

/-- A complete result determines the values. -/
theorem Complete.unique {r : SessionResult} {st li v cs st' li' v' cs'}
    (h : Spec.Complete r st li v cs) (h' : Spec.Complete r st' li' v' cs') :
    st = st' ∧ li = li' ∧ v = v' ∧ cs = cs' := by
  have e1 : st = st' := Option.some.inj (h.state.symm.trans h'.state)
  have e2 : li = li' := Option.some.inj (h.localIdentity.symm.trans h'.localIdentity)
  subst e1 e2
  have a := tlsVersionFromProto_ok.2 h.version
  rw [tlsVersionFromProto_ok.2 h'.version] at a
  have b := ciphersuiteFromProto_ok.2 h.suite
  rw [ciphersuiteFromProto_ok.2 h'.suite] at b
  cases a; cases b
  exact ⟨rfl, rfl, rfl, rfl⟩

theorem Waiting.last {evs : List Event} {ev : Event} {ctx : Context} {r st li v cs}
    (hr : carried ev = some r) (hc : Spec.Complete r st li v cs) :
    Waiting (evs ++ [ev]) ctx ↔ ctx = Spec.contextOf r st li v cs := by
  constructor
  · rintro ⟨pre, x, post, r', st', li', v', cs', h1, h2, h3, h4, h5⟩
    rcases List.eq_nil_or_concat post with rfl | ⟨post, y, rfl⟩
    · have h1 : evs ++ [ev] = pre ++ [x] := h1
      obtain ⟨rfl, hx⟩ := List.append_inj' h1 rfl
      cases hx
      rw [hr] at h2
      cases h2
      obtain ⟨rfl, rfl, rfl, rfl⟩ := Complete.unique hc h3
      exact h4
    · rw [List.concat_eq_append, ← List.cons_append, ← List.append_assoc] at h1
      obtain ⟨rfl, hx⟩ := List.append_inj' h1 rfl
      cases hx
      exact absurd ⟨st, li, v, cs, hc⟩
        ((h5 ev (by rw [List.concat_eq_append]; simp)).2 r hr)
  · rintro rfl
    exact ⟨evs, ev, [], r, st, li, v, cs, rfl, hr, hc, rfl, by simp⟩

theorem Waiting.fetched {evs : List Event} {c} {ctx : Context} :
    ¬ Waiting (evs ++ [.getContext c]) ctx := by
  rintro ⟨pre, x, post, r, st, li, v, cs, h1, h2, h3, h4, h5⟩
  rcases List.eq_nil_or_concat post with rfl | ⟨post, y, rfl⟩
  · have h1 : evs ++ [_] = pre ++ [x] := h1
    obtain ⟨rfl, hx⟩ := List.append_inj' h1 rfl
    cases hx
    cases h2
  · rw [List.concat_eq_append, ← List.cons_append, ← List.append_assoc] at h1
    obtain ⟨rfl, hx⟩ := List.append_inj' h1 rfl
    cases hx
    exact (h5 _ (by rw [List.concat_eq_append]; simp)).1 c rfl

theorem Reach.context {L : Lib} {o : Options} {s : State} {evs : List Event}
    (h : Reach L o s evs) :
    (s.context ≠ none → s.finished = true) ∧ ∀ ctx, s.context = some ctx ↔ Waiting evs ctx := by
  refine h.induction (P := fun s evs => (s.context ≠ none → s.finished = true) ∧
    ∀ ctx, s.context = some ctx ↔ Waiting evs ctx) ?_ ?_
  · intro s hs
    have : s.context = none := by
      unfold create at hs
      split at hs
      · cases hs
      · cases hs
      · cases hs; rfl
    rw [this]
    refine ⟨by simp, fun ctx => ⟨by simp, ?_⟩⟩
    rintro ⟨pre, x, post, _, _, _, _, _, h1, _⟩
    simp at h1
  · rintro s evs op s' ev ⟨ih1, ih2⟩ hs
    cases hr : carried ev with
    | none =>
      obtain ⟨_, k2, k3, k4, k5⟩ := step_keeps hs hr
      by_cases hg : ∀ c, ev ≠ .getContext c
      · rw [k3 hg, k2]
        exact ⟨ih1, fun ctx => by rw [Waiting.snoc hg (by simp [hr])]; exact ih2 ctx⟩
      · simp only [ne_eq, Classical.not_forall, Classical.not_not] at hg
        obtain ⟨c, rfl⟩ := hg
        have hn : s'.context = none := by
          by_cases hf : s.finished = true
          · exact k4 hf ⟨c, rfl⟩
          · exact k5 (Classical.byContradiction fun hne => hf (ih1 hne))
        rw [hn]
        exact ⟨by simp, fun ctx => ⟨by simp, fun hw => absurd hw Waiting.fetched⟩⟩
    | some r =>
      obtain ⟨r1, _, r3⟩ := step_result hs hr
      by_cases hc : IsComplete r
      · obtain ⟨st, li, v, cs, hc⟩ := hc
        obtain ⟨a1, a2, _⟩ := step_complete hs hr hc
        refine ⟨fun _ => a1, fun ctx => ?_⟩
        rw [a2, Waiting.last hr hc, Option.some.injEq, eq_comm]
      · rw [r3 hc]
        have hf : s.finished = true → s'.finished = true := by
          intro hf
          cases op with
          | forS2A e bytes => cases hs; cases hr
          | isFinished => cases hs; cases hr
          | createFrameProtector fIn fOut =>
            simp only [Proxy.step, exec_bind_eq_ok] at hs
            obtain ⟨⟨s1, p⟩, h1, h2⟩ := hs
            cases h2; cases hr
          | getContext => simp only [Proxy.step] at hs; cases hs; cases hr
          | forPeer dec bytes =>
            simp only [Proxy.step] at hs
            cases hs
            by_cases hb : ∀ resp, response dec bytes = some resp → ¬ Spec.Good resp
            · rw [(carried_bad hb).1] at hr; cases hr
            · simp only [Classical.not_forall, Classical.not_not] at hb
              obtain ⟨resp, h1, h2⟩ := hb
              obtain ⟨ctx, res, he⟩ := getBytesForPeer_frame dec s bytes resp h1 h2
              rw [he]
              simp [hf]
        refine ⟨fun hne => hf (ih1 hne), fun ctx => ?_⟩
        rw [Waiting.snoc r1 (by rw [hr]; rintro _ ⟨⟩; exact hc)]
        exact ih2 ctx

/-! ### Frame protectors -/

/-- Creating a frame protector with all parts there is defined; an error code is not OK. -/
theorem frame_create_total (L : Lib) (fIn fOut : KeyFault) (o : Frame.Options) :
    ∃ x, Frame.create L fIn fOut o = .ok x ∧ ∀ c, x = .error c → c ≠ .ok := by
  unfold Frame.create
  split
  · exact ⟨_, rfl, by rintro _ ⟨⟩; decide⟩
  · suffices ∃ x, Record.create L fIn fOut { o.crypter with hasSender := true } = .ok x ∧
        ∀ c, x = .error c → c ≠ .ok by
      obtain ⟨x, h1, h2⟩ := this
      rw [h1, exec_bind_ok]
      cases x with
      | error e => exact ⟨_, rfl, by rintro _ ⟨⟩; exact h2 e rfl⟩
      | ok c => exact ⟨_, rfl, by rintro _ ⟨⟩⟩
    unfold Record.create
    split
    · exact ⟨_, rfl, by rintro _ ⟨⟩; decide⟩
    split
    · exact ⟨_, rfl, by rintro _ ⟨⟩; decide⟩
    split
    · exact ⟨_, rfl, by rintro _ ⟨⟩; decide⟩
    split
    · exact ⟨_, rfl, by rintro _ ⟨⟩; decide⟩
    simp only []
    obtain ⟨r1, g1, _, g3, _⟩ :=
      HalfConn.create_spec L fIn o.crypter.ciphersuite o.crypter.inSequence o.crypter.inSecret
    obtain ⟨r2, k1, _, k3, _⟩ :=
      HalfConn.create_spec L fOut o.crypter.ciphersuite o.crypter.outSequence o.crypter.outSecret
    rw [g1, exec_bind_ok]
    cases r1 with
    | error e => exact ⟨_, rfl, by rintro _ ⟨⟩; exact g3 e rfl⟩
    | ok c1 =>
      simp only [k1, exec_bind_ok]
      cases r2 with
      | error e => exact ⟨_, rfl, by rintro _ ⟨⟩; exact k3 e rfl⟩
      | ok c2 => exact ⟨_, rfl, by rintro _ ⟨⟩⟩

/-- What a successfully created frame protector needs. -/
theorem frame_create_needs {L : Lib} {fIn fOut : KeyFault} {o : Frame.Options} {p : Frame.State}
    (h : Frame.create L fIn fOut o = .ok (.ok p)) :
    o.crypter.tlsVersion = .tls1_3 ∧ o.crypter.url ≠ [] ∧
      ∃ su, Spec.suite o.crypter.ciphersuite = some su ∧
        o.crypter.inSecret.length = su.hash.digestSize ∧
        o.crypter.outSecret.length = su.hash.digestSize := by
  unfold Frame.create at h
  split at h
  · cases h
  · rw [exec_bind_eq_ok] at h
    obtain ⟨x, h1, h2⟩ := h
    cases x with
    | error e => cases h2
    | ok c =>
      obtain ⟨a1, _, _, a4, a5, a6, _⟩ := Record.create_inv h1
      obtain ⟨r1, g1, g2, _⟩ :=
        HalfConn.create_spec L fIn o.crypter.ciphersuite o.crypter.inSequence o.crypter.inSecret
      obtain ⟨r2, k1, k2, _⟩ :=
        HalfConn.create_spec L fOut o.crypter.ciphersuite o.crypter.outSequence o.crypter.outSecret
      have e1 : r1 = .ok c.inC := by
        have := g1.symm.trans a5
        exact Except.ok.inj this
      have e2 : r2 = .ok c.outC := by
        have := k1.symm.trans a6
        exact Except.ok.inj this
      obtain ⟨su, m1, m2, _⟩ := g2 _ e1
      obtain ⟨su', n1, n2, _⟩ := k2 _ e2
      rw [m1] at n1
      cases n1
      exact ⟨a4, a1, su, m1, m2, n2⟩

/-! ### Key uses -/

/-- Two directions that start from the same secret and sequence number use the same keys and
nonces as long as their key updates are at the same places. -/
theorem follows_same {L : Lib} {su : Spec.Suite} {sec : Bytes} {us vs : List Spec.KeyUse}
    {n q : Nat} (hu : Spec.Follows L su sec n q us) (hv : Spec.Follows L su sec n q vs)
    (k : Nat) (h : (us.map Spec.KeyUse.isRekey).take k = (vs.map Spec.KeyUse.isRekey).take k) :
    us.take k = vs.take k := by
  induction k generalizing us vs n q with
  | zero => simp
  | succ k ih =>
    cases us with
    | nil =>
      cases vs with
      | nil => rfl
      | cons v vs => simp at h
    | cons u us =>
      cases vs with
      | nil => simp at h
      | cons v vs =>
        simp only [List.map_cons, List.take_succ_cons, List.cons.injEq] at h ⊢
        obtain ⟨h1, h2⟩ := h
        cases u with
        | rekey =>
          cases v with
          | rekey => exact ⟨rfl, ih hu hv h2⟩
          | aead k' n' => cases h1
        | aead k1 n1 =>
          cases v with
          | rekey => cases h1
          | aead k2 n2 =>
            obtain ⟨a1, a2, _, a4⟩ := hu
            obtain ⟨b1, b2, _, b4⟩ := hv
            exact ⟨by rw [a1, a2, b1, b2], ih a4 b4 h2⟩

/-! ### Tokens -/

theorem populate_others (e : Env) (s : State) (log : Asked) (i : Identity)
    (h : CacheOk log s.cache) (hm : s.hasTokenManager = true) (hs : s.selected = some i) :
    (∀ j t, (j, t) ∈ (populate e s).1.cache → j ≠ i →
      ∃ c, (some i, .error c) ∈ (populate e s).2) ∧
    (∀ c, (some i, .error c) ∈ (populate e s).2 →
      (∀ j t, (j, t) ∈ s.cache → ∃ u, (j, u) ∈ (populate e s).1.cache) ∧
      ∀ j ∈ s.options.locals, cacheHas (populate e s).1.cache j = true ∨
        ∃ c, (some j, .error c) ∈ (populate e s).2) := by
  unfold populate
  rw [hm, hs]
  simp only [Bool.not_true, if_neg Bool.false_ne_true]
  split
  · rename_i hc
    simp only [Bool.and_eq_true, beq_iff_eq] at hc
    obtain ⟨hc, hl⟩ := hc
    obtain ⟨u, hu⟩ := cacheHas_iff.1 hc
    obtain ⟨x, hx⟩ := List.length_eq_one_iff.1 hl
    rw [hx, List.mem_singleton] at hu
    refine ⟨?_, by simp⟩
    intro j t hm hne
    rw [hx, List.mem_singleton, ← hu] at hm
    cases hm
    exact absurd rfl hne
  · cases ha : e.answer 0 (some i) with
    | ok t =>
      refine ⟨?_, by simp⟩
      intro j u hm hne
      simp only [List.mem_singleton, Prod.mk.injEq] at hm
      exact absurd hm.1 hne
    | error c =>
      simp only []
      refine ⟨fun _ _ _ _ => ⟨c, List.mem_cons_self⟩, fun c' _ => ⟨?_, ?_⟩⟩
      · intro j t hj
        have hk := (fetchLoop_ok e (e.orderIds s.options.locals) 1 log s.cache h).2.2.1 j t hj
        unfold fetchAll
        generalize fetchLoop e (e.orderIds s.options.locals) 1 s.cache = p at hk
        obtain ⟨c1, asked⟩ := p
        simp only at hk ⊢
        split
        · cases e.answer (1 + asked.length) none with
          | error err => exact ⟨t, hk⟩
          | ok u =>
            by_cases hje : j = Identity.empty
            · exact ⟨u, mem_cacheSet.2 (.inl ⟨hje, rfl⟩)⟩
            · exact ⟨t, mem_cacheSet.2 (.inr ⟨hje, hk⟩)⟩
        · exact ⟨t, hk⟩
      · intro j hj
        rcases (fetchAll_ok e s 1 log h).2.2.1 j hj with hh | ⟨err, hh⟩
        · exact .inl hh
        · exact .inr ⟨err, List.mem_cons_of_mem _ hh⟩

end S2A.Proxy
