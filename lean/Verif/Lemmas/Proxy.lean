import Verif.Spec.Proxy
import Verif.Lemmas.Context
import Verif.Lemmas.HalfConnHist
/- Calls on the proxy and histories of them. -/
namespace S2A.Proxy
open Proto Util
open HalfConn (exec_bind_eq_ok)
open Spec (latest gave about asks questions carried announced requests request)

theorem identityFromProto_eq (p : Option PIdentity) :
    identityFromProto p = Spec.identityOf p := by
  match p with
  | none => rfl
  | some .unset => rfl
  | some (.spiffeId _) => rfl
  | some (.hostname _) => rfl
  | some (.uid _) => rfl

/-! ### The token cache -/

theorem latest_append (a b : Asked) (i : Identity) :
    latest (a ++ b) i = (latest b i).or (latest a i) := by
  unfold latest
  rw [List.filterMap_append, List.getLast?_append]

theorem latest_single (q : Question) (r : Except StatusCode Bytes) (i : Identity) :
    latest [(q, r)] i = gave i (q, r) := by
  unfold latest
  cases h : gave i (q, r) <;> simp [List.filterMap_cons, h]

theorem latest_ok (log : Asked) (q : Question) (t : Bytes) (i : Identity) :
    latest (log ++ [(q, .ok t)]) i = if about q = i then some t else latest log i := by
  rw [latest_append, latest_single]
  simp only [gave]
  split <;> simp

theorem latest_err (log : Asked) (q : Question) (c : StatusCode) (i : Identity) :
    latest (log ++ [(q, .error c)]) i = latest log i := by
  rw [latest_append, latest_single]
  simp [gave]

/-- The cache holds, for each identity at most once, the last token given for it. -/
structure CacheOk (log : Asked) (c : List (Identity × Bytes)) : Prop where
  last : ∀ i t, (i, t) ∈ c → latest log i = some t
  keys : (c.map (·.1)).Nodup

theorem CacheOk.nil : CacheOk [] [] := ⟨by simp, by simp⟩

theorem cacheHas_iff {c : List (Identity × Bytes)} {i : Identity} :
    cacheHas c i = true ↔ ∃ t, (i, t) ∈ c := by
  simp [cacheHas]

theorem mem_cacheSet {c : List (Identity × Bytes)} {i j : Identity} {t u : Bytes} :
    (j, u) ∈ cacheSet c i t ↔ (j = i ∧ u = t) ∨ (j ≠ i ∧ (j, u) ∈ c) := by
  unfold cacheSet
  split
  · rename_i h
    simp only [List.any_eq_true, beq_iff_eq, Prod.exists, exists_and_right, exists_eq_right] at h
    obtain ⟨t', h⟩ := h
    simp only [List.mem_map, Prod.exists]
    constructor
    · rintro ⟨a, b, hm, he⟩
      split at he
      · cases he; exact .inl ⟨rfl, rfl⟩
      · rename_i hne; cases he; exact .inr ⟨hne, hm⟩
    · rintro (⟨rfl, rfl⟩ | ⟨hne, hm⟩)
      · exact ⟨j, t', h, by simp⟩
      · exact ⟨j, u, hm, by simp [hne]⟩
  · rename_i h
    simp only [Bool.not_eq_true, List.any_eq_false, beq_iff_eq, Prod.forall] at h
    simp only [List.mem_append, List.mem_singleton, Prod.mk.injEq]
    constructor
    · rintro (hm | ⟨rfl, rfl⟩)
      · exact .inr ⟨h _ _ hm, hm⟩
      · exact .inl ⟨rfl, rfl⟩
    · rintro (⟨rfl, rfl⟩ | ⟨_, hm⟩)
      · exact .inr ⟨rfl, rfl⟩
      · exact .inl hm

theorem cacheSet_keys {c : List (Identity × Bytes)} {i : Identity} {t : Bytes}
    (h : (c.map (·.1)).Nodup) : ((cacheSet c i t).map (·.1)).Nodup := by
  unfold cacheSet
  split
  · rw [List.map_map]
    have : (fun x : Identity × Bytes => x.1) ∘ (fun e => if e.1 = i then (i, t) else e) =
        fun x => x.1 := by
      funext e
      simp only [Function.comp]
      split
      · rename_i h; exact h.symm
      · rfl
    rw [this]
    exact h
  · rename_i hn
    simp only [Bool.not_eq_true, List.any_eq_false, beq_iff_eq, Prod.forall] at hn
    rw [List.map_append, List.nodup_append]
    refine ⟨h, by simp, ?_⟩
    intro a ha b hb
    simp only [List.mem_map, Prod.exists, exists_and_right, exists_eq_right] at ha
    simp at hb
    obtain ⟨u, hu⟩ := ha
    rw [hb]
    exact hn _ _ hu

theorem CacheOk.set {log : Asked} {c} (h : CacheOk log c) (q : Question) (t : Bytes) :
    CacheOk (log ++ [(q, .ok t)]) (cacheSet c (about q) t) := by
  refine ⟨?_, cacheSet_keys h.keys⟩
  intro j u hm
  rw [latest_ok]
  rcases mem_cacheSet.1 hm with ⟨rfl, rfl⟩ | ⟨hne, hm⟩
  · simp
  · rw [if_neg (Ne.symm hne)]
    exact h.last _ _ hm

theorem CacheOk.err {log : Asked} {c} (h : CacheOk log c) (q : Question) (e : StatusCode) :
    CacheOk (log ++ [(q, .error e)]) c :=
  ⟨fun i t hm => by rw [latest_err]; exact h.last i t hm, h.keys⟩

/-- The cache holds every token given. -/
def CacheFull (log : Asked) (c : List (Identity × Bytes)) : Prop :=
  ∀ i t, latest log i = some t → (i, t) ∈ c

theorem CacheFull.set {log : Asked} {c} (h : CacheFull log c) (q : Question) (t : Bytes) :
    CacheFull (log ++ [(q, .ok t)]) (cacheSet c (about q) t) := by
  intro j u hl
  rw [latest_ok] at hl
  rw [mem_cacheSet]
  split at hl
  · rename_i he; cases hl; exact .inl ⟨he.symm, rfl⟩
  · rename_i hne; exact .inr ⟨fun e => hne e.symm, h _ _ hl⟩

theorem CacheFull.err {log : Asked} {c} (h : CacheFull log c) (q : Question) (e : StatusCode) :
    CacheFull (log ++ [(q, .error e)]) c := by
  intro i t hl
  rw [latest_err] at hl
  exact h _ _ hl

theorem fetchLoop_ok (e : Env) (ids : List Identity) (n : Nat) (log : Asked)
    (c : List (Identity × Bytes)) (h : CacheOk log c) :
    CacheOk (log ++ (fetchLoop e ids n c).2) (fetchLoop e ids n c).1 ∧
    (CacheFull log c → CacheFull (log ++ (fetchLoop e ids n c).2) (fetchLoop e ids n c).1) ∧
    (∀ i t, (i, t) ∈ c → (i, t) ∈ (fetchLoop e ids n c).1) ∧
    (∀ i ∈ ids, cacheHas (fetchLoop e ids n c).1 i = true ∨
      ∃ err, (some i, .error err) ∈ (fetchLoop e ids n c).2) := by
  induction ids generalizing n c log with
  | nil => simp [fetchLoop, h]
  | cons i ids ih =>
    simp only [fetchLoop]
    by_cases hc : cacheHas c i = true
    · rw [if_pos hc]
      obtain ⟨h1, h2, h3, h4⟩ := ih n log c h
      refine ⟨h1, h2, h3, ?_⟩
      intro j hj
      rcases List.mem_cons.1 hj with rfl | hj
      · left
        obtain ⟨t, ht⟩ := cacheHas_iff.1 hc
        exact cacheHas_iff.2 ⟨t, h3 _ _ ht⟩
      · exact h4 j hj
    · rw [if_neg hc]
      cases ha : e.answer n (some i) with
      | error err =>
        obtain ⟨h1, h2, h3, h4⟩ := ih (n + 1) (log ++ [(some i, .error err)]) c (h.err _ _)
        simp only [List.append_assoc, List.singleton_append] at h1 h2
        refine ⟨h1, fun hf => h2 (hf.err _ _), h3, ?_⟩
        intro j hj
        rcases List.mem_cons.1 hj with rfl | hj
        · exact .inr ⟨err, List.mem_cons_self⟩
        · rcases h4 j hj with h | ⟨err, h⟩
          · exact .inl h
          · exact .inr ⟨err, List.mem_cons_of_mem _ h⟩
      | ok t =>
        obtain ⟨h1, h2, h3, h4⟩ := ih (n + 1) (log ++ [(some i, .ok t)]) (cacheSet c i t)
          (h.set (some i) t)
        simp only [List.append_assoc, List.singleton_append] at h1 h2
        have keep : ∀ j u, (j, u) ∈ c → (j, u) ∈ cacheSet c i t := by
          intro j u hm
          rw [mem_cacheSet]
          refine .inr ⟨?_, hm⟩
          rintro rfl
          exact hc (cacheHas_iff.2 ⟨u, hm⟩)
        refine ⟨h1, fun hf => h2 (hf.set (some i) t), fun j u hm => h3 _ _ (keep j u hm), ?_⟩
        intro j hj
        rcases List.mem_cons.1 hj with rfl | hj
        · exact .inl (cacheHas_iff.2 ⟨t, h3 _ _ (mem_cacheSet.2 (.inl ⟨rfl, rfl⟩))⟩)
        · rcases h4 j hj with h | ⟨err, h⟩
          · exact .inl h
          · exact .inr ⟨err, List.mem_cons_of_mem _ h⟩

theorem fetchAll_state (e : Env) (s : State) (n : Nat) :
    (fetchAll e s n).1 = { s with cache := (fetchAll e s n).1.cache } := by
  unfold fetchAll
  generalize fetchLoop e (e.orderIds s.options.locals) n s.cache = p
  obtain ⟨c, asked⟩ := p
  simp only []
  split <;> rfl

theorem fetchAll_ok (e : Env) (s : State) (n : Nat) (log : Asked) (h : CacheOk log s.cache) :
    CacheOk (log ++ (fetchAll e s n).2) (fetchAll e s n).1.cache ∧
    (CacheFull log s.cache → CacheFull (log ++ (fetchAll e s n).2) (fetchAll e s n).1.cache) ∧
    (∀ i ∈ s.options.locals, cacheHas (fetchAll e s n).1.cache i = true ∨
      ∃ err, (some i, .error err) ∈ (fetchAll e s n).2) ∧
    (s.options.locals = [] → cacheHas (fetchAll e s n).1.cache .empty = true ∨
      ∃ err, (none, .error err) ∈ (fetchAll e s n).2) := by
  obtain ⟨h1, h2, h3, h4⟩ := fetchLoop_ok e (e.orderIds s.options.locals) n log s.cache h
  unfold fetchAll
  generalize fetchLoop e (e.orderIds s.options.locals) n s.cache = p at h1 h2 h3 h4
  obtain ⟨c, asked⟩ := p
  simp only at h1 h2 h3 h4 ⊢
  by_cases he : s.options.locals = []
  · rw [he, if_pos (by simp)]
    cases ha : e.answer (n + asked.length) none with
    | error err =>
      simp only [← List.append_assoc]
      exact ⟨h1.err _ _, fun hf => (h2 hf).err _ _, by simp, fun _ => .inr ⟨err, by simp⟩⟩
    | ok t =>
      simp only [← List.append_assoc]
      exact ⟨h1.set none t, fun hf => (h2 hf).set none t, by simp, fun _ => .inl
        (cacheHas_iff.2 ⟨t, mem_cacheSet.2 (.inl ⟨rfl, rfl⟩)⟩)⟩
  · rw [if_neg (by simpa using he)]
    exact ⟨h1, h2, fun i hi => h4 i ((e.orderIds_perm _).mem_iff.2 hi), fun hn => absurd hn he⟩

theorem populate_state (e : Env) (s : State) :
    (populate e s).1 = { s with cache := (populate e s).1.cache } := by
  unfold populate
  split
  · rfl
  · split
    · split
      · rfl
      · split
        · rfl
        · simp only []
          rw [fetchAll_state]
    · exact fetchAll_state _ _ _

theorem populate_ok (e : Env) (s : State) (log : Asked) (h : CacheOk log s.cache) :
    CacheOk (log ++ (populate e s).2) (populate e s).1.cache := by
  unfold populate
  split
  · simpa using h
  · split
    · rename_i i _
      split
      · simpa using h
      · cases ha : e.answer 0 (some i) with
        | ok t =>
          refine ⟨?_, by simp⟩
          intro j u hm
          simp only [List.mem_singleton, Prod.mk.injEq] at hm
          obtain ⟨rfl, rfl⟩ := hm
          rw [latest_ok]
          simp [about]
        | error c =>
          have := (fetchAll_ok e s 1 (log ++ [(some i, .error c)]) (h.err _ _)).1
          simpa using this
    · exact (fetchAll_ok e s 0 log h).1

theorem populate_full (e : Env) (s : State) (log : Asked) (h : CacheOk log s.cache)
    (hs : s.selected = none) (hf : CacheFull log s.cache) :
    CacheFull (log ++ (populate e s).2) (populate e s).1.cache := by
  unfold populate
  split
  · simpa using hf
  · rw [hs]
    exact (fetchAll_ok e s 0 log h).2.1 hf

theorem populate_none (e : Env) (s : State) (h : s.hasTokenManager = false) :
    populate e s = (s, []) := by
  unfold populate
  rw [h]
  rfl

theorem populate_selected (e : Env) (s : State) (log : Asked) (i : Identity) (h : CacheOk log s.cache)
    (hm : s.hasTokenManager = true) (hs : s.selected = some i)
    (ha : ∃ t, e.answer 0 (some i) = .ok t) :
    ∃ t, latest (log ++ (populate e s).2) i = some t ∧ (populate e s).1.cache = [(i, t)] := by
  unfold populate
  rw [hm, hs]
  obtain ⟨t, ha⟩ := ha
  simp only [Bool.not_true, if_neg Bool.false_ne_true, ha]
  split
  · rename_i hc
    simp only [Bool.and_eq_true, beq_iff_eq] at hc
    obtain ⟨hc, hl⟩ := hc
    obtain ⟨u, hu⟩ := cacheHas_iff.1 hc
    obtain ⟨x, hx⟩ := List.length_eq_one_iff.1 hl
    rw [hx] at hu
    simp only [List.mem_singleton] at hu
    refine ⟨u, ?_, by rw [hx, hu]⟩
    rw [List.append_nil]
    exact h.last i u (by rw [hx, hu]; simp)
  · exact ⟨t, by rw [latest_ok]; simp [about], rfl⟩

/-! ### Single calls -/

/-- A request from its kind and the token cache. -/
def reqOf (e : Env) (s : State) (k : ReqKind) : SessionReq :=
  ⟨k, (e.orderTokens (populate e s).1.cache).map mechanism⟩

theorem finishRequest_eq (e : Env) (s : State) (k : ReqKind) :
    finishRequest e s k = ((populate e s).1,
      (if e.serializeFails then .fail .internal else ⟨.ok, 0, some (reqOf e s k).serialize⟩),
      (populate e s).2) := by
  unfold finishRequest reqOf
  generalize populate e s = p
  obtain ⟨s', asked⟩ := p
  simp only []
  split <;> rfl

theorem mapM_option {α β : Type} (f : α → Except StatusCode β) (g : α → Option β)
    (h : ∀ a, f a = orFail (g a)) (l : List α) : l.mapM f = orFail (l.mapM g) := by
  induction l with
  | nil => rfl
  | cons a l ih =>
    rw [List.mapM_cons, List.mapM_cons, ih, h]
    cases g a with
    | none => rfl
    | some b =>
      cases l.mapM g <;> rfl

theorem mapM_some {α β : Type} (g : α → Option β) (l : List α) :
    ∀ bs, l.mapM g = some bs ↔ bs.map some = l.map g := by
  induction l with
  | nil => intro bs; cases bs <;> simp
  | cons a l ih =>
    intro bs
    rw [List.mapM_cons]
    cases hg : g a with
    | none => cases bs <;> simp [hg]
    | some b =>
      cases hm : l.mapM g with
      | none =>
        cases bs with
        | nil => simp [hg]
        | cons b' bs =>
          have := ih bs
          rw [hm] at this
          simp only [false_iff, reduceCtorEq] at this
          simp [hg]
          intro _
          exact this
      | some bs' =>
        cases bs with
        | nil => simp [hg]
        | cons b' bs =>
          have := ih bs
          rw [hm] at this
          simp only [Option.some.injEq] at this
          simp only [Option.pure_def, Option.bind_eq_bind, Option.bind_some, Option.some.injEq,
            List.cons.injEq, List.map_cons, hg, ← this]
          constructor
          · rintro ⟨rfl, rfl⟩; exact ⟨rfl, rfl⟩
          · rintro ⟨rfl, rfl⟩; exact ⟨rfl, rfl⟩

theorem mapM_isSome {α β : Type} (g : α → Option β) (l : List α) :
    (l.mapM g).isSome ↔ ∀ a ∈ l, (g a).isSome := by
  induction l with
  | nil => simp
  | cons a l ih =>
    rw [List.mapM_cons]
    cases hg : g a with
    | none => simp [hg]
    | some b =>
      cases hm : l.mapM g with
      | none => rw [hm] at ih; simp at ih; simp [hg]; exact ih
      | some bs => rw [hm] at ih; simp at ih; simp [hg]; exact ih

/-- The wire forms of identities. -/
def wireIds (ids : List Identity) : Option (List PIdentity) := ids.mapM identityToProto

theorem convertIds_eq (ids : List Identity) : convertIds ids = orFail (wireIds ids) := by
  refine mapM_option _ _ (fun i => ?_) ids
  cases identityToProto i <;> rfl

/-- The client start request, if the options are valid. -/
def clientOf (e : Env) (s : State) : Option ClientStart := do
  let minV ← Spec.wireTlsVersion s.options.minTlsVersion
  let maxV ← Spec.wireTlsVersion s.options.maxTlsVersion
  let cs ← s.options.ciphersuites.mapM Spec.wireCiphersuite
  let targets ← wireIds (e.orderIds s.options.targets)
  if s.options.locals.length > 1 then none
  else
    let li ← wireIds s.options.locals
    some { applicationProtocols := [Spec.cut s.applicationProtocol]
           minTlsVersion := minV
           maxTlsVersion := maxV
           ciphersuites := cs
           targetIdentities := targets
           localIdentity := li.head?
           targetName := Spec.cut s.targetHostname }

theorem clientStart_eq (e : Env) (s : State) : clientStart e s = orFail (clientOf e s) := by
  unfold clientStart clientOf
  rw [tlsVersionToProto_eq, tlsVersionToProto_eq,
    mapM_option _ _ ciphersuiteToProto_eq, convertIds_eq, convertIds_eq]
  cases Spec.wireTlsVersion s.options.minTlsVersion with
  | none => rfl
  | some a =>
    cases Spec.wireTlsVersion s.options.maxTlsVersion with
    | none => rfl
    | some b =>
      cases s.options.ciphersuites.mapM Spec.wireCiphersuite with
      | none => rfl
      | some c =>
        cases wireIds (e.orderIds s.options.targets) with
        | none => rfl
        | some d =>
          by_cases h : s.options.locals.length > 1
          · simp [bind, Except.bind, h, orFail]
          · simp only [bind, Except.bind, Option.bind, if_neg h, orFail]
            cases wireIds s.options.locals <;> rfl

/-- The server start request, if the options are valid. -/
def serverOf (e : Env) (s : State) (bytes : Option Bytes) : Option ServerStart := do
  let minV ← Spec.wireTlsVersion s.options.minTlsVersion
  let maxV ← Spec.wireTlsVersion s.options.maxTlsVersion
  let cs ← s.options.ciphersuites.mapM Spec.wireCiphersuite
  let locals ← wireIds (e.orderIds s.options.locals)
  some { applicationProtocols := [Spec.cut s.applicationProtocol]
         minTlsVersion := minV
         maxTlsVersion := maxV
         ciphersuites := cs
         localIdentities := locals
         inBytes := bytes.getD [] }

theorem serverStart_eq (e : Env) (s : State) (bytes : Option Bytes) :
    serverStart e s bytes = orFail (serverOf e s bytes) := by
  unfold serverStart serverOf
  rw [tlsVersionToProto_eq, tlsVersionToProto_eq,
    mapM_option _ _ ciphersuiteToProto_eq, convertIds_eq]
  cases Spec.wireTlsVersion s.options.minTlsVersion with
  | none => rfl
  | some a =>
    cases Spec.wireTlsVersion s.options.maxTlsVersion with
    | none => rfl
    | some b =>
      cases s.options.ciphersuites.mapM Spec.wireCiphersuite with
      | none => rfl
      | some c => cases wireIds (e.orderIds s.options.locals) <;> rfl

/-- The message that a call of `GetBytesForS2A` builds, if it gets that far. -/
def plan (e : Env) (s : State) (bytes : Option Bytes) : Option ReqKind :=
  if s.first then
    if s.isClient then
      if bytes.getD [] ≠ [] then none else (clientOf e s).map .clientStart
    else (serverOf e s bytes).map .serverStart
  else if bytes.getD [] = [] then none
  else some (.next ⟨bytes.getD []⟩)

theorem getBytesForS2A_eq (e : Env) (s : State) (bytes : Option Bytes) :
    getBytesForS2A e s bytes =
      match plan e s bytes with
      | none => (s, .fail .failedPrecondition, [])
      | some k =>
        ({ (populate e s).1 with first := s.first && e.serializeFails },
          if e.serializeFails then .fail .internal else ⟨.ok, 0, some (reqOf e s k).serialize⟩,
          (populate e s).2) := by
  have pf : (populate e s).1.first = s.first := by rw [populate_state]
  unfold getBytesForS2A plan
  cases hf : s.first with
  | false =>
    simp only [if_neg Bool.false_ne_true]
    by_cases hb : bytes.getD [] = []
    · simp [hb]
    · rw [if_neg (by simpa using hb), if_neg hb]
      simp only [getNext, finishRequest_eq, Bool.false_and, Prod.mk.injEq, and_true]
      rw [← hf, ← pf]
  | true =>
    rw [hf] at pf
    simp only [if_pos]
    have close : ∀ k, (let (s, st, asked) := finishRequest e s k
        ((if st.code = .ok then { s with first := false } else s), st, asked)) =
        ({ (populate e s).1 with first := true && e.serializeFails },
          (if e.serializeFails then .fail .internal else ⟨.ok, 0, some (reqOf e s k).serialize⟩),
          (populate e s).2) := by
      intro k
      rw [finishRequest_eq]
      cases e.serializeFails with
      | false => rfl
      | true =>
        simp only [Status.fail, if_pos, Bool.true_and]
        rw [if_neg (by decide)]
        rw [← pf]
    cases hc : s.isClient with
    | true =>
      simp only [Bool.true_and, if_pos]
      by_cases hb : bytes.getD [] = []
      · simp only [hb, bne_self_eq_false, if_neg Bool.false_ne_true, ne_eq, not_true_eq_false,
          if_false]
        unfold getClientStart
        rw [clientStart_eq]
        cases clientOf e s with
        | none => rfl
        | some m => exact close (.clientStart m)
      · rw [if_pos (by simpa using hb), if_pos hb]
    | false =>
      simp only [Bool.false_and, if_neg Bool.false_ne_true]
      unfold getServerStart
      rw [serverStart_eq]
      cases serverOf e s bytes with
      | none => rfl
      | some m => exact close (.serverStart m)

theorem bind_some_inv {α β : Type} {x : Option α} {f : α → Option β} {b : β}
    (h : (x >>= f) = some b) : ∃ a, x = some a ∧ f a = some b := by
  cases x with
  | none => cases h
  | some a => exact ⟨a, rfl, h⟩

theorem clientOf_inv {e : Env} {s : State} {m : ClientStart} (h : clientOf e s = some m) :
    Spec.wireTlsVersion s.options.minTlsVersion = some m.minTlsVersion ∧
    Spec.wireTlsVersion s.options.maxTlsVersion = some m.maxTlsVersion ∧
    m.ciphersuites.map some = s.options.ciphersuites.map Spec.wireCiphersuite ∧
    m.targetIdentities.map some = (e.orderIds s.options.targets).map identityToProto ∧
    s.options.locals.length ≤ 1 ∧
    (∃ ls : List PIdentity, ls.map some = s.options.locals.map identityToProto ∧ m.localIdentity = ls.head?) ∧
    m.applicationProtocols = [Spec.cut s.applicationProtocol] ∧
    m.targetName = Spec.cut s.targetHostname := by
  unfold clientOf at h
  obtain ⟨a, h1, h⟩ := bind_some_inv h
  obtain ⟨b, h2, h⟩ := bind_some_inv h
  obtain ⟨c, h3, h⟩ := bind_some_inv h
  obtain ⟨d, h4, h⟩ := bind_some_inv h
  split at h
  · cases h
  rename_i hl
  obtain ⟨f, h5, h⟩ := bind_some_inv h
  cases h
  exact ⟨h1, h2, (mapM_some _ _ _).1 h3, (mapM_some _ _ _).1 h4, by omega,
    ⟨f, (mapM_some _ _ _).1 h5, rfl⟩, rfl, rfl⟩

theorem serverOf_inv {e : Env} {s : State} {bytes : Option Bytes} {m : ServerStart}
    (h : serverOf e s bytes = some m) :
    Spec.wireTlsVersion s.options.minTlsVersion = some m.minTlsVersion ∧
    Spec.wireTlsVersion s.options.maxTlsVersion = some m.maxTlsVersion ∧
    m.ciphersuites.map some = s.options.ciphersuites.map Spec.wireCiphersuite ∧
    m.localIdentities.map some = (e.orderIds s.options.locals).map identityToProto ∧
    m.applicationProtocols = [Spec.cut s.applicationProtocol] ∧
    m.inBytes = bytes.getD [] := by
  unfold serverOf at h
  obtain ⟨a, h1, h⟩ := bind_some_inv h
  obtain ⟨b, h2, h⟩ := bind_some_inv h
  obtain ⟨c, h3, h⟩ := bind_some_inv h
  obtain ⟨d, h4, h⟩ := bind_some_inv h
  cases h
  exact ⟨h1, h2, (mapM_some _ _ _).1 h3, (mapM_some _ _ _).1 h4, rfl, rfl⟩

theorem isSome_toProto (i : Identity) : (identityToProto i).isSome = (Spec.wireIdentity i).isSome := by
  obtain ⟨t, v⟩ := i
  cases t <;> rfl

theorem clientOf_isSome (e : Env) (s : State) :
    (clientOf e s).isSome ↔ Spec.ValidClient s.options := by
  have ht := mapM_isSome identityToProto (e.orderIds s.options.targets)
  have hl := mapM_isSome identityToProto s.options.locals
  have hc := mapM_isSome Spec.wireCiphersuite s.options.ciphersuites
  simp only [(e.orderIds_perm _).mem_iff, isSome_toProto] at ht hl
  constructor
  · intro h
    obtain ⟨m, hm⟩ := Option.isSome_iff_exists.1 h
    unfold clientOf at hm
    obtain ⟨a, h1, hm⟩ := bind_some_inv hm
    obtain ⟨b, h2, hm⟩ := bind_some_inv hm
    obtain ⟨c, h3, hm⟩ := bind_some_inv hm
    obtain ⟨d, h4, hm⟩ := bind_some_inv hm
    split at hm
    · cases hm
    rename_i hlen
    obtain ⟨f, h5, hm⟩ := bind_some_inv hm
    unfold wireIds at h4 h5
    exact ⟨⟨by rw [h1]; rfl, by rw [h2]; rfl, hc.1 (by rw [h3]; rfl), hl.1 (by rw [h5]; rfl)⟩,
      ht.1 (by rw [h4]; rfl), by omega⟩
  · rintro ⟨⟨h1, h2, h3, h5⟩, h4, h6⟩
    obtain ⟨a, h1⟩ := Option.isSome_iff_exists.1 h1
    obtain ⟨b, h2⟩ := Option.isSome_iff_exists.1 h2
    obtain ⟨c, h3⟩ := Option.isSome_iff_exists.1 (hc.2 h3)
    obtain ⟨d, h4⟩ := Option.isSome_iff_exists.1 (ht.2 h4)
    obtain ⟨f, h5⟩ := Option.isSome_iff_exists.1 (hl.2 h5)
    simp [clientOf, wireIds, h1, h2, h3, h4, h5, show ¬ s.options.locals.length > 1 by omega]

theorem serverOf_isSome (e : Env) (s : State) (bytes : Option Bytes) :
    (serverOf e s bytes).isSome ↔ Spec.ValidCommon s.options := by
  have hl := mapM_isSome identityToProto (e.orderIds s.options.locals)
  have hc := mapM_isSome Spec.wireCiphersuite s.options.ciphersuites
  simp only [(e.orderIds_perm _).mem_iff, isSome_toProto] at hl
  constructor
  · intro h
    obtain ⟨m, hm⟩ := Option.isSome_iff_exists.1 h
    unfold serverOf at hm
    obtain ⟨a, h1, hm⟩ := bind_some_inv hm
    obtain ⟨b, h2, hm⟩ := bind_some_inv hm
    obtain ⟨c, h3, hm⟩ := bind_some_inv hm
    obtain ⟨d, h4, hm⟩ := bind_some_inv hm
    unfold wireIds at h4
    exact ⟨by rw [h1]; rfl, by rw [h2]; rfl, hc.1 (by rw [h3]; rfl), hl.1 (by rw [h4]; rfl)⟩
  · rintro ⟨h1, h2, h3, h5⟩
    obtain ⟨a, h1⟩ := Option.isSome_iff_exists.1 h1
    obtain ⟨b, h2⟩ := Option.isSome_iff_exists.1 h2
    obtain ⟨c, h3⟩ := Option.isSome_iff_exists.1 (hc.2 h3)
    obtain ⟨d, h4⟩ := Option.isSome_iff_exists.1 (hl.2 h5)
    simp [serverOf, wireIds, h1, h2, h3, h4]

theorem suites_lt {l : List Nat} {cs : List Ciphersuite}
    (h : l.map some = cs.map Spec.wireCiphersuite) : ∀ c ∈ l, c < 2 ^ 32 := by
  intro c hc
  have : some c ∈ cs.map Spec.wireCiphersuite := by
    rw [← h]; exact List.mem_map_of_mem hc
  obtain ⟨x, _, hx⟩ := List.mem_map.1 this
  exact wireCiphersuite_lt hx

/-- The S2A can read every request that is emitted. -/
theorem read_reqOf {e : Env} {s : State} {bytes : Option Bytes} {k : ReqKind}
    (h : plan e s bytes = some k) (hl : (reqOf e s k).serialize.length < 2 ^ 64) :
    Spec.readRequest (reqOf e s k).serialize = some (reqOf e s k) := by
  refine SessionReq.parse_serialize _ _ hl ?_ (fun a _ => ⟨fun _ _ _ _ => rfl, fun _ _ => rfl⟩)
  show k.Ok _
  unfold plan at h
  split at h
  · split at h
    · split at h
      · cases h
      · obtain ⟨m, hm, rfl⟩ := Option.map_eq_some_iff.1 h
        obtain ⟨h1, h2, h3, _⟩ := clientOf_inv hm
        exact ⟨wireTlsVersion_lt h1, wireTlsVersion_lt h2, suites_lt h3, by simp, rfl, by simp,
          by simp⟩
    · obtain ⟨m, hm, rfl⟩ := Option.map_eq_some_iff.1 h
      obtain ⟨h1, h2, h3, _⟩ := serverOf_inv hm
      exact ⟨wireTlsVersion_lt h1, wireTlsVersion_lt h2, suites_lt h3, by simp, by simp⟩
  · split at h
    · cases h
    · cases h
      trivial

/-! ### Responses -/

theorem tlsVersionFromProto_ok {n : Nat} {v : TlsVersion} :
    tlsVersionFromProto n = .ok v ↔ Spec.wireTlsVersion v = some n := by
  refine ⟨fun h => ?_, tlsVersionFromProto_wire⟩
  unfold tlsVersionFromProto at h
  split at h <;> cases h <;> rfl

theorem ciphersuiteFromProto_ok {n : Nat} {c : Ciphersuite} :
    ciphersuiteFromProto n = .ok c ↔ Spec.wireCiphersuite c = some n := by
  refine ⟨fun h => ?_, ciphersuiteFromProto_wire⟩
  unfold ciphersuiteFromProto at h
  split at h <;> cases h <;> rfl

/-- The parts of the state that a result does not touch. -/
theorem handleResult_frame (s : State) (r : SessionResult) :
    ∃ ctx res, (handleResult s r).1 = { s with context := ctx, result := res } := by
  unfold handleResult
  cases r.state with
  | none => exact ⟨s.context, s.result, rfl⟩
  | some st =>
    simp only []
    cases tlsVersionFromProto st.tlsVersion with
    | error c => exact ⟨s.context, _, rfl⟩
    | ok v =>
      cases ciphersuiteFromProto st.ciphersuite with
      | error c => exact ⟨s.context, _, rfl⟩
      | ok cs =>
        cases r.localIdentity with
        | none => exact ⟨s.context, _, rfl⟩
        | some li => exact ⟨_, _, rfl⟩

theorem handleResult_complete {s : State} {r : SessionResult} {st li v cs}
    (h : Spec.Complete r st li v cs) :
    handleResult s r =
      ({ s with
         result := some ⟨v, cs, st.inKey, st.outKey, .ofNat st.inSequence, .ofNat st.outSequence,
           .ofNat st.connectionId, Spec.identityOf (some li)⟩
         context := some (Spec.contextOf r st li v cs) }, none) := by
  unfold handleResult
  rw [h.state]
  simp only [tlsVersionFromProto_ok.2 h.version, ciphersuiteFromProto_ok.2 h.suite,
    h.localIdentity, identityFromProto_eq]
  rfl

theorem handleResult_ok {s : State} {r : SessionResult} (h : (handleResult s r).2 = none) :
    ∃ st li v cs, Spec.Complete r st li v cs := by
  unfold handleResult at h
  cases hs : r.state with
  | none => simp [hs] at h
  | some st =>
    simp only [hs] at h
    cases hv : tlsVersionFromProto st.tlsVersion with
    | error c => simp [hv] at h
    | ok v =>
      cases hc : ciphersuiteFromProto st.ciphersuite with
      | error c => simp [hv, hc] at h
      | ok cs =>
        cases hl : r.localIdentity with
        | none => simp [hv, hc, hl] at h
        | some li =>
          exact ⟨st, li, v, cs, hs, tlsVersionFromProto_ok.1 hv, ciphersuiteFromProto_ok.1 hc, hl⟩

/-- The state with the identity that a response announces. -/
def select (s : State) (resp : SessionResp) : State :=
  match resp.localIdentity with
  | some i => { s with selected := some (Spec.identityOf (some i)) }
  | none => s

theorem getBytesForPeer_bad {dec : Bytes → Option SessionResp} {s : State} {bytes : Option Bytes}
    (h : ∀ resp, response dec bytes = some resp → ¬ Spec.Good resp) :
    ∃ c, c ≠ .ok ∧ getBytesForPeer dec s bytes = (s, .fail c) := by
  unfold getBytesForPeer
  unfold response at h
  split
  · exact ⟨_, by decide, rfl⟩
  · rename_i hb
    rw [if_neg hb] at h
    cases hd : dec (bytes.getD []) with
    | none => exact ⟨_, by decide, rfl⟩
    | some resp =>
      have hg := h resp hd
      unfold Spec.Good at hg
      cases hs : resp.status with
      | none => simp only [hs]; exact ⟨_, by decide, rfl⟩
      | some st =>
        simp only [hs]
        rw [if_pos (fun hz => hg ⟨st, hs, hz⟩)]
        exact ⟨_, by decide, rfl⟩

theorem getBytesForPeer_good {dec : Bytes → Option SessionResp} {s : State} {bytes : Option Bytes}
    {resp : SessionResp} (h : response dec bytes = some resp) (hg : Spec.Good resp) :
    getBytesForPeer dec s bytes =
      match resp.result with
      | none => (select s resp, ⟨.ok, resp.bytesConsumed, some resp.outFrames⟩)
      | some r =>
        match handleResult { select s resp with finished := true } r with
        | (s, some c) => (s, .fail c)
        | (s, none) => (s, ⟨.ok, resp.bytesConsumed, some resp.outFrames⟩) := by
  unfold response at h
  split at h
  · cases h
  · rename_i hb
    obtain ⟨st, h1, h2⟩ := hg
    unfold getBytesForPeer
    rw [if_neg hb, h]
    simp only [h1]
    rw [if_neg (by simp [h2])]
    simp only [identityFromProto_eq]
    unfold select
    cases resp.result with
    | none => rfl
    | some r => rfl

theorem carried_eq {dec : Bytes → Option SessionResp} {bytes : Option Bytes} {st : Status}
    {resp : SessionResp} (h : response dec bytes = some resp) (hg : Spec.Good resp) :
    carried (.forPeer (response dec bytes) st) = resp.result := by
  obtain ⟨x, h1, h2⟩ := hg
  rw [h]
  simp [carried, h1, h2]

theorem announced_eq {dec : Bytes → Option SessionResp} {bytes : Option Bytes} {st : Status}
    {resp : SessionResp} (h : response dec bytes = some resp) (hg : Spec.Good resp) :
    announced (.forPeer (response dec bytes) st) =
      resp.localIdentity.map fun i => Spec.identityOf (some i) := by
  obtain ⟨x, h1, h2⟩ := hg
  rw [h]
  simp [announced, h1, h2]

theorem carried_bad {ro : Option SessionResp} {st : Status}
    (h : ∀ resp, ro = some resp → ¬ Spec.Good resp) :
    carried (.forPeer ro st) = none ∧ announced (.forPeer ro st) = none := by
  cases ro with
  | none => exact ⟨rfl, rfl⟩
  | some resp =>
    have := h resp rfl
    unfold Spec.Good at this
    cases hs : resp.status with
    | none => simp [carried, announced, hs]
    | some x =>
      have hx : x.code ≠ 0 := fun e => this ⟨x, hs, e⟩
      simp [carried, announced, hs, hx]

/-! ### Histories -/

/-- A proxy made from the options `o` is in state `s` after a history of calls on it in which
the events `evs` were seen. -/
def Reach (L : Lib) (o : Options) (s : State) (evs : List Event) : Prop :=
  ∃ s0 ops, create o = some s0 ∧ run L s0 ops = .ok (s, evs)

theorem run_append {L : Lib} {ops1 ops2 : List Op} {s s1 s2 : State} {e1 e2 : List Event}
    (h1 : run L s ops1 = .ok (s1, e1)) (h2 : run L s1 ops2 = .ok (s2, e2)) :
    run L s (ops1 ++ ops2) = .ok (s2, e1 ++ e2) := by
  induction ops1 generalizing s e1 with
  | nil => cases h1; simpa using h2
  | cons op ops ih =>
    simp only [run, exec_bind_eq_ok] at h1
    obtain ⟨⟨s', e⟩, g1, ⟨s'', es'⟩, g2, g3⟩ := h1
    cases g3
    simp [run, g1, ih g2]

theorem Reach.step {L : Lib} {o : Options} {s s' : State} {evs : List Event} {op : Op} {ev : Event}
    (h : Reach L o s evs) (hs : Proxy.step L s op = .ok (s', ev)) : Reach L o s' (evs ++ [ev]) := by
  obtain ⟨s0, ops, h1, h2⟩ := h
  exact ⟨s0, ops ++ [op], h1, run_append h2 (by simp [run, hs])⟩

theorem Reach.start {L : Lib} {o : Options} {s : State} (h : create o = some s) :
    Reach L o s [] := ⟨s, [], h, rfl⟩

theorem run_induction {L : Lib} {P : State → List Event → Prop} {evs0 : List Event}
    {s0 s : State} {ops : List Op} {evs : List Event} (h0 : P s0 evs0)
    (hs : ∀ s evs op s' ev, P s evs → Proxy.step L s op = .ok (s', ev) → P s' (evs ++ [ev]))
    (h : run L s0 ops = .ok (s, evs)) : P s (evs0 ++ evs) := by
  induction ops generalizing s0 evs0 evs with
  | nil => cases h; simpa using h0
  | cons op ops ih =>
    simp only [run, exec_bind_eq_ok] at h
    obtain ⟨⟨s', e⟩, g1, ⟨s'', es'⟩, g2, g3⟩ := h
    cases g3
    have := ih (hs _ _ _ _ _ h0 g1) g2
    simpa using this

theorem Reach.induction {L : Lib} {o : Options} {P : State → List Event → Prop}
    (h0 : ∀ s, create o = some s → P s [])
    (hs : ∀ s evs op s' ev, P s evs → Proxy.step L s op = .ok (s', ev) → P s' (evs ++ [ev]))
    {s : State} {evs : List Event} (h : Reach L o s evs) : P s evs := by
  obtain ⟨s0, ops, h1, h2⟩ := h
  simpa using run_induction (evs0 := []) (h0 _ h1) hs h2

/-- Cut a history in two. -/
theorem Reach.split {L : Lib} {o : Options} {s : State} {pre post : List Event} {ev : Event}
    (h : Reach L o s (pre ++ ev :: post)) :
    ∃ s1 op s2 ops, Reach L o s1 pre ∧ Proxy.step L s1 op = .ok (s2, ev) ∧
      run L s2 ops = .ok (s, post) := by
  obtain ⟨s0, ops, h1, h2⟩ := h
  suffices key : ∀ (pre : List Event) s0 ops, run L s0 ops = .ok (s, pre ++ ev :: post) →
      ∃ s1 ops1 op s2 ops2, run L s0 ops1 = .ok (s1, pre) ∧ Proxy.step L s1 op = .ok (s2, ev) ∧
        run L s2 ops2 = .ok (s, post) by
    obtain ⟨s1, ops1, op, s2, ops2, g1, g2, g3⟩ := key pre s0 ops h2
    exact ⟨s1, op, s2, ops2, ⟨s0, ops1, h1, g1⟩, g2, g3⟩
  intro pre
  induction pre with
  | nil =>
    intro s0 ops h
    cases ops with
    | nil => simp [run] at h
    | cons op ops =>
      simp only [run, exec_bind_eq_ok] at h
      obtain ⟨⟨s', e⟩, g1, ⟨s'', es'⟩, g2, g3⟩ := h
      cases g3
      exact ⟨s0, [], op, s', ops, rfl, g1, g2⟩
  | cons e pre ih =>
    intro s0 ops h
    cases ops with
    | nil => simp [run] at h
    | cons op ops =>
      simp only [run, exec_bind_eq_ok] at h
      obtain ⟨⟨s', e'⟩, g1, ⟨s'', es'⟩, g2, g3⟩ := h
      cases g3
      obtain ⟨s1, ops1, op', s2, ops2, k1, k2, k3⟩ := ih s' ops g2
      exact ⟨s1, op :: ops1, op', s2, ops2, by simp [run, g1, k1], k2, k3⟩

/-- The configuration in a state is the one given to `Create`. -/
structure Config (o : Options) (s : State) : Prop where
  isClient : s.isClient = o.isClient
  applicationProtocol : s.applicationProtocol = o.applicationProtocol
  targetHostname : s.targetHostname = o.targetHostname
  options : o.options = some s.options
  hasTokenManager : s.hasTokenManager = o.hasTokenManager
  hasFactory : s.hasFactory = true → o.hasFactory = true

/-- How the state follows from what was seen. -/
structure Inv (o : Options) (s : State) (evs : List Event) : Prop where
  config : Config o s
  first : s.first = true ↔ requests evs = []
  finished : s.finished = true ↔ ∃ ev ∈ evs, (carried ev).isSome
  selected : s.selected = (evs.filterMap announced).getLast?
  cache : CacheOk (asks evs) s.cache
  full : (∀ ev ∈ evs, announced ev = none) → CacheFull (asks evs) s.cache
  noTokens : s.hasTokenManager = false → s.cache = []

theorem Inv.start {o : Options} {s : State} (h : create o = some s) : Inv o s [] := by
  unfold create at h
  cases hl : o.hasLogger with
  | false => simp [hl] at h
  | true =>
    cases ho : o.options with
    | none => simp [hl, ho] at h
    | some opts =>
      simp only [hl, ho, Option.some.injEq] at h
      subst h
      exact ⟨⟨rfl, rfl, rfl, ho, rfl, id⟩, by simp [requests], by simp, rfl, .nil,
        fun _ _ _ h => by simp [asks, latest] at h, fun _ => rfl⟩

/-- An event that says nothing about the handshake. -/
theorem Inv.skip {o : Options} {s s' : State} {evs : List Event} {ev : Event} (h : Inv o s evs)
    (h1 : request ev = none) (h2 : carried ev = none) (h3 : announced ev = none)
    (h4 : questions ev = []) (hc : Config o s') (e1 : s'.first = s.first)
    (e2 : s'.finished = s.finished) (e3 : s'.selected = s.selected) (e4 : s'.cache = s.cache) :
    Inv o s' (evs ++ [ev]) := by
  have hm : s'.hasTokenManager = s.hasTokenManager :=
    hc.hasTokenManager.trans h.config.hasTokenManager.symm
  refine ⟨hc, ?_, ?_, ?_, ?_, ?_, ?_⟩
  · rw [e1, h.first]; simp [requests, h1]
  · rw [e2, h.finished]; simp [h2]
  · rw [e3, h.selected]; simp [h3]
  · rw [e4]; simpa [asks, h4] using h.cache
  · intro hn
    rw [e4]
    have := h.full (fun ev hev => hn ev (by simp [hev]))
    simpa [asks, h4] using this
  · rw [hm, e4]; exact h.noTokens

theorem Inv.forS2A {o : Options} {s : State} {evs : List Event} (h : Inv o s evs) (e : Env)
    (bytes : Option Bytes) :
    Inv o (getBytesForS2A e s bytes).1
      (evs ++ [.forS2A bytes (getBytesForS2A e s bytes).2.1 (getBytesForS2A e s bytes).2.2]) := by
  rw [getBytesForS2A_eq]
  cases hp : plan e s bytes with
  | none => exact h.skip rfl rfl rfl rfl h.config rfl rfl rfl rfl
  | some k =>
    simp only []
    have ps := populate_state e s
    generalize hq : (populate e s).1 = q at ps ⊢
    have hcfg : Config o { q with first := s.first && e.serializeFails } := by
      rw [ps]
      obtain ⟨c1, c2, c3, c4, c5, c6⟩ := h.config
      exact ⟨c1, c2, c3, c4, c5, c6⟩
    refine ⟨hcfg, ?_, ?_, ?_, ?_, ?_, ?_⟩
    · cases hs : e.serializeFails with
      | true => simp [requests, request, Status.fail, h.first]
      | false => simp [requests, request]
    · rw [show ({ q with first := s.first && e.serializeFails } : State).finished = s.finished by
        rw [ps], h.finished]
      simp [carried]
    · rw [show ({ q with first := s.first && e.serializeFails } : State).selected = s.selected by
        rw [ps], h.selected]
      simp [announced]
    · have := populate_ok e s (asks evs) h.cache
      rw [hq] at this
      simpa [asks, questions] using this
    · intro hn
      have hn' : ∀ ev ∈ evs, announced ev = none := fun ev hev => hn ev (by simp [hev])
      have hsel : s.selected = none := by
        rw [h.selected]
        have : evs.filterMap announced = [] := by
          rw [List.filterMap_eq_nil_iff]; exact hn'
        rw [this]; rfl
      have := populate_full e s (asks evs) h.cache hsel (h.full hn')
      rw [hq] at this
      simpa [asks, questions] using this
    · intro hm
      have hm' : s.hasTokenManager = false := by rw [ps] at hm; exact hm
      have := populate_none e s hm'
      have hqs : q = s := by rw [← hq, this]
      rw [hqs]
      exact h.noTokens hm'

theorem select_frame (s : State) (resp : SessionResp) :
    select s resp = { s with selected := (select s resp).selected } := by
  unfold select
  split <;> rfl

theorem select_selected (s : State) (resp : SessionResp) :
    (select s resp).selected =
      (resp.localIdentity.map fun i => Spec.identityOf (some i)).or s.selected := by
  unfold select
  cases resp.localIdentity <;> rfl

theorem getBytesForPeer_frame (dec : Bytes → Option SessionResp) (s : State) (bytes : Option Bytes)
    (resp : SessionResp) (h : response dec bytes = some resp) (hg : Spec.Good resp) :
    ∃ ctx res, (getBytesForPeer dec s bytes).1 =
      { select s resp with
        finished := s.finished || resp.result.isSome, context := ctx, result := res } := by
  have sf : (select s resp).finished = s.finished := by rw [select_frame]
  rw [getBytesForPeer_good h hg]
  cases hr : resp.result with
  | none =>
    refine ⟨(select s resp).context, (select s resp).result, ?_⟩
    simp only [Option.isSome_none, Bool.or_false, ← sf]
  | some r =>
    obtain ⟨ctx, res, hh⟩ := handleResult_frame { select s resp with finished := true } r
    refine ⟨ctx, res, ?_⟩
    simp only [Option.isSome_some, Bool.or_true]
    revert hh
    generalize handleResult { select s resp with finished := true } r = x
    obtain ⟨x1, x2⟩ := x
    intro hh
    simp only at hh
    cases x2 <;> simp only [hh]

theorem Inv.forPeer {o : Options} {s : State} {evs : List Event} (h : Inv o s evs)
    (dec : Bytes → Option SessionResp) (bytes : Option Bytes) :
    Inv o (getBytesForPeer dec s bytes).1
      (evs ++ [.forPeer (response dec bytes) (getBytesForPeer dec s bytes).2]) := by
  by_cases hb : ∀ resp, response dec bytes = some resp → ¬ Spec.Good resp
  · obtain ⟨c, _, he⟩ := getBytesForPeer_bad (s := s) hb
    obtain ⟨b1, b2⟩ := carried_bad (st := (getBytesForPeer dec s bytes).2) hb
    rw [he] at b1 b2 ⊢
    exact h.skip rfl b1 b2 rfl h.config rfl rfl rfl rfl
  · simp only [Classical.not_forall, Classical.not_not] at hb
    obtain ⟨resp, h1, h2⟩ := hb
    obtain ⟨ctx, res, he⟩ := getBytesForPeer_frame dec s bytes resp h1 h2
    have sf := select_frame s resp
    have c1 := carried_eq (st := (getBytesForPeer dec s bytes).2) h1 h2
    have c2 := announced_eq (st := (getBytesForPeer dec s bytes).2) h1 h2
    generalize getBytesForPeer dec s bytes = x at he c1 c2 ⊢
    obtain ⟨x1, x2⟩ := x
    simp only at he c1 c2 ⊢
    subst he
    have hsel := select_selected s resp
    rw [sf]
    simp only at hsel ⊢
    refine ⟨?_, ?_, ?_, ?_, ?_, ?_, ?_⟩
    · obtain ⟨c1, c2, c3, c4, c5, c6⟩ := h.config
      exact ⟨c1, c2, c3, c4, c5, c6⟩
    · simpa [requests, request] using h.first
    · simp only [Bool.or_eq_true, h.finished, List.mem_append, List.mem_singleton]
      constructor
      · rintro (⟨ev, h, h'⟩ | h)
        · exact ⟨ev, .inl h, h'⟩
        · exact ⟨_, .inr rfl, by rw [c1]; exact h⟩
      · rintro ⟨ev, h | rfl, h'⟩
        · exact .inl ⟨ev, h, h'⟩
        · right; rw [c1] at h'; exact h'
    · simp only [hsel, List.filterMap_append, List.getLast?_append, h.selected]
      congr 1
      rw [List.filterMap_cons, c2]
      cases resp.localIdentity <;> rfl
    · simpa [asks, questions] using h.cache
    · intro hn
      simpa [asks, questions] using h.full (fun ev hev => hn ev (by simp [hev]))
    · exact h.noTokens

theorem createFrameProtector_state {L : Lib} {fIn fOut : KeyFault} {s s' : State}
    {p : Except StatusCode Frame.State}
    (h : createFrameProtector L fIn fOut s = .ok (s', p)) :
    s' = s ∨ s' = { s with hasFactory := false } := by
  unfold createFrameProtector at h
  split at h
  · cases h; exact .inl rfl
  · split at h
    · cases h
    · simp only [exec_bind_eq_ok] at h
      obtain ⟨_, _, h⟩ := h
      cases h
      exact .inr rfl

theorem Inv.step {L : Lib} {o : Options} {s s' : State} {evs : List Event} {op : Op} {ev : Event}
    (h : Inv o s evs) (hs : Proxy.step L s op = .ok (s', ev)) : Inv o s' (evs ++ [ev]) := by
  cases op with
  | forS2A e bytes => cases hs; exact h.forS2A e bytes
  | forPeer dec bytes => cases hs; exact h.forPeer dec bytes
  | isFinished => cases hs; exact h.skip rfl rfl rfl rfl h.config rfl rfl rfl rfl
  | createFrameProtector fIn fOut =>
    simp only [Proxy.step, exec_bind_eq_ok] at hs
    obtain ⟨⟨s1, p⟩, h1, h2⟩ := hs
    cases h2
    obtain ⟨c1, c2, c3, c4, c5, c6⟩ := h.config
    rcases createFrameProtector_state h1 with rfl | rfl
    · exact h.skip rfl rfl rfl rfl h.config rfl rfl rfl rfl
    · exact h.skip rfl rfl rfl rfl ⟨c1, c2, c3, c4, c5, by simp⟩ rfl rfl rfl rfl
  | getContext =>
    simp only [Proxy.step] at hs
    cases hs
    obtain ⟨c1, c2, c3, c4, c5, c6⟩ := h.config
    unfold getS2AContext
    split
    · exact h.skip rfl rfl rfl rfl h.config rfl rfl rfl rfl
    · exact h.skip rfl rfl rfl rfl ⟨c1, c2, c3, c4, c5, c6⟩ rfl rfl rfl rfl

theorem Reach.inv {L : Lib} {o : Options} {s : State} {evs : List Event} (h : Reach L o s evs) :
    Inv o s evs :=
  h.induction (fun _ => Inv.start) fun _ _ _ _ _ => Inv.step

/-! ### The result -/

/-- The result and the context of a proxy after a response with a complete result. -/
theorem step_complete {L : Lib} {s s' : State} {op : Op} {ev : Event} {r : SessionResult}
    {st li v cs} (hs : Proxy.step L s op = .ok (s', ev)) (hr : carried ev = some r)
    (hc : Spec.Complete r st li v cs) :
    s'.finished = true ∧ s'.context = some (Spec.contextOf r st li v cs) ∧
    s'.result = some ⟨v, cs, st.inKey, st.outKey, .ofNat st.inSequence, .ofNat st.outSequence,
      .ofNat st.connectionId, Spec.identityOf (some li)⟩ := by
  cases op with
  | forS2A e bytes => cases hs; cases hr
  | isFinished => cases hs; cases hr
  | createFrameProtector fIn fOut =>
    simp only [Proxy.step, exec_bind_eq_ok] at hs
    obtain ⟨⟨s1, p⟩, h1, h2⟩ := hs
    cases h2; cases hr
  | getContext => simp only [Proxy.step] at hs; cases hs; cases hr
  | forPeer dec bytes =>
    simp only [Proxy.step] at hs
    cases hs
    by_cases hb : ∀ resp, response dec bytes = some resp → ¬ Spec.Good resp
    · rw [(carried_bad hb).1] at hr; cases hr
    · simp only [Classical.not_forall, Classical.not_not] at hb
      obtain ⟨resp, h1, h2⟩ := hb
      rw [carried_eq h1 h2] at hr
      rw [getBytesForPeer_good h1 h2, hr]
      simp only [handleResult_complete hc]
      simp

/-- Calls that carry no result do not change it. -/
theorem step_keeps {L : Lib} {s s' : State} {op : Op} {ev : Event}
    (hs : Proxy.step L s op = .ok (s', ev)) (hr : carried ev = none) :
    s'.result = s.result ∧ s'.finished = s.finished ∧
    ((∀ c, ev ≠ .getContext c) → s'.context = s.context) ∧
    (s.finished = true → (∃ c, ev = .getContext c) → s'.context = none) ∧
    (s.context = none → s'.context = none) := by
  cases op with
  | forS2A e bytes =>
    simp only [Proxy.step, getBytesForS2A_eq, Except.ok.injEq, Prod.mk.injEq] at hs
    obtain ⟨rfl, rfl⟩ := hs
    cases plan e s bytes with
    | none => simp
    | some k =>
      simp only []
      rw [populate_state]
      simp
  | isFinished => cases hs; simp
  | createFrameProtector fIn fOut =>
    simp only [Proxy.step, exec_bind_eq_ok] at hs
    obtain ⟨⟨s1, p⟩, h1, h2⟩ := hs
    cases h2
    rcases createFrameProtector_state h1 with rfl | rfl <;> simp
  | getContext =>
    simp only [Proxy.step] at hs
    cases hs
    unfold getS2AContext
    split
    · rename_i hf
      simp only [Bool.not_eq_true'] at hf
      simp [hf]
    · simp
  | forPeer dec bytes =>
    simp only [Proxy.step] at hs
    cases hs
    by_cases hb : ∀ resp, response dec bytes = some resp → ¬ Spec.Good resp
    · obtain ⟨c, _, he⟩ := getBytesForPeer_bad (s := s) hb
      rw [he]
      simp
    · simp only [Classical.not_forall, Classical.not_not] at hb
      obtain ⟨resp, h1, h2⟩ := hb
      rw [carried_eq h1 h2] at hr
      rw [getBytesForPeer_good h1 h2, hr]
      simp only []
      rw [select_frame]
      simp

theorem run_keeps {L : Lib} {s s' : State} {ops : List Op} {evs : List Event}
    (hs : run L s ops = .ok (s', evs)) (hr : ∀ ev ∈ evs, carried ev = none) :
    s'.result = s.result ∧ s'.finished = s.finished ∧
    ((∀ ev ∈ evs, ∀ c, ev ≠ .getContext c) → s'.context = s.context) ∧
    (s.finished = true → (∃ ev ∈ evs, ∃ c, ev = .getContext c) → s'.context = none) ∧
    (s.context = none → s'.context = none) := by
  induction ops generalizing s evs with
  | nil => cases hs; simp
  | cons op ops ih =>
    simp only [run, exec_bind_eq_ok] at hs
    obtain ⟨⟨s1, e⟩, g1, ⟨s2, es⟩, g2, g3⟩ := hs
    cases g3
    obtain ⟨a1, a2, a3, a4, a5⟩ := step_keeps g1 (hr e List.mem_cons_self)
    obtain ⟨b1, b2, b3, b4, b5⟩ := ih g2 (fun ev hev => hr ev (List.mem_cons_of_mem _ hev))
    refine ⟨b1.trans a1, b2.trans a2, ?_, ?_, fun h => b5 (a5 h)⟩
    · intro hn
      exact (b3 fun ev hev => hn ev (List.mem_cons_of_mem _ hev)).trans
        (a3 (hn e List.mem_cons_self))
    · rintro hf ⟨ev, hev, hc⟩
      rcases List.mem_cons.1 hev with rfl | hev
      · exact b5 (a4 hf hc)
      · exact b4 (a2.trans hf) ⟨ev, hev, hc⟩

end S2A.Proxy
