import Verif.Spec.Secrets
import Verif.Lemmas.Alike
import Verif.Lemmas.TextProxy
import Verif.Lemmas.ProxyResult
/-
Tokens go only into requests to the S2A, and traffic secrets only into frame protectors.
-/
namespace S2A.Proxy
open S2A.Proto S2A.Util
open Spec (Pairs Maybe SameButToken SameEntry SameButTokens SameRequest SameCall SameSeen withoutKeys Both)

variable {R : Bytes → Bytes → Prop} {keys : Prop}

theorem Pairs.append {α β : Type} {S : α → β → Prop} {a a' b b'} (h : Pairs S a b) (h' : Pairs S a' b') :
    Pairs S (a ++ a') (b ++ b') := by
  induction h with
  | nil => exact h'
  | cons h1 _ ih => exact .cons h1 ih

theorem Pairs.map {α β γ δ : Type} {S : α → β → Prop} {T : γ → δ → Prop} {f : α → γ} {g : β → δ}
    {a b} (h : Pairs S a b) (hfg : ∀ x y, S x y → T (f x) (g y)) : Pairs T (a.map f) (b.map g) := by
  induction h with
  | nil => exact .nil
  | cons h1 _ ih => exact .cons (hfg _ _ h1) ih

theorem Pairs.length {α β : Type} {S : α → β → Prop} {a b} (h : Pairs S a b) :
    a.length = b.length := by
  induction h with
  | nil => rfl
  | cons _ _ ih => simp [ih]

/-- Two caches. -/
abbrev SameCache (R : Bytes → Bytes → Prop) := Pairs (SameEntry R)

theorem SameCache.has {c c'} (h : SameCache R c c') (i : Identity) : cacheHas c i = cacheHas c' i := by
  unfold cacheHas
  induction h with
  | nil => rfl
  | cons h1 _ ih => simp only [List.any_cons, ih, h1.identity]

theorem SameCache.set {c c'} (h : SameCache R c c') (i : Identity) {t t'} (ht : R t t') :
    SameCache R (cacheSet c i t) (cacheSet c' i t') := by
  have h1 := h.has i
  unfold cacheHas at h1
  unfold cacheSet
  rw [h1]
  by_cases h2 : (c'.any fun x => x.1 == i) = true
  · rw [if_pos h2, if_pos h2]
    refine Pairs.map h ?_
    intro x y hxy
    rw [hxy.identity]
    by_cases h3 : y.1 = i
    · rw [if_pos h3, if_pos h3]; exact ⟨rfl, ht⟩
    · rw [if_neg h3, if_neg h3]; exact hxy
  · rw [if_neg h2, if_neg h2]
    exact Pairs.append h (.cons ⟨rfl, ht⟩ .nil)

/-- Two lists of questions and answers. -/
abbrev SameAsked (R : Bytes → Bytes → Prop) : Asked → Asked → Prop :=
  Pairs (fun a a' => a.1 = a'.1 ∧ SameButToken R a.2 a'.2)

theorem fetchLoop_alike {e e' : Env} (he : SameButTokens R e e') (ids : List Identity) :
    ∀ {n c c'}, SameCache R c c' →
    SameCache R (fetchLoop e ids n c).1 (fetchLoop e' ids n c').1 ∧
    SameAsked R (fetchLoop e ids n c).2 (fetchLoop e' ids n c').2 := by
  induction ids with
  | nil => intro n c c' h; exact ⟨h, .nil⟩
  | cons i ids ih =>
    intro n c c' h
    simp only [fetchLoop, h.has i]
    by_cases h1 : cacheHas c' i = true
    · rw [if_pos h1, if_pos h1]; exact ih h
    · rw [if_neg h1, if_neg h1]
      have ha := he.answer n (some i)
      generalize e.answer n (some i) = x at ha
      generalize e'.answer n (some i) = y at ha
      cases ha with
      | token ht =>
        have := ih (n := n + 1) (h.set i ht)
        exact ⟨this.1, .cons ⟨rfl, .token ht⟩ this.2⟩
      | error k =>
        have := ih (n := n + 1) h
        exact ⟨this.1, .cons ⟨rfl, .error k⟩ this.2⟩

/-- The result of a handshake without the secrets. -/
def HsResult.withoutKeys (r : HsResult) : HsResult := { r with inSecret := [], outSecret := [] }

/-- Two proxies that are the same but for tokens and secrets. -/
structure Alike (R : Bytes → Bytes → Prop) (keys : Prop) (s s' : State) : Prop where
  cache : SameCache R s.cache s'.cache
  result : s.result.map HsResult.withoutKeys = s'.result.map HsResult.withoutKeys
  same : ¬ keys → s.result = s'.result
  rest : { s' with cache := s.cache, result := s.result } = s

theorem Alike.other {s s' : State} (h : Alike R keys s s') :
    ∃ c r, s' = { s with cache := c, result := r } ∧ SameCache R s.cache c ∧
      s.result.map HsResult.withoutKeys = r.map HsResult.withoutKeys ∧ (¬ keys → s.result = r) := by
  refine ⟨s'.cache, s'.result, ?_, h.cache, h.result, h.same⟩
  have := h.rest
  rw [← this]

theorem Alike.of {s : State} {c r} (hc : SameCache R s.cache c)
    (hr : s.result.map HsResult.withoutKeys = r.map HsResult.withoutKeys)
    (hs : ¬ keys → s.result = r) : Alike R keys s { s with cache := c, result := r } :=
  ⟨hc, hr, hs, rfl⟩

theorem Alike.refl {s : State} (hR : ∀ t, (∃ i, (i, t) ∈ s.cache) → R t t) : Alike R keys s s := by
  refine ⟨?_, rfl, fun _ => rfl, rfl⟩
  generalize s.cache = c at hR
  induction c with
  | nil => exact .nil
  | cons x xs ih =>
    exact .cons ⟨rfl, hR x.2 ⟨x.1, by simp⟩⟩ (ih fun t ⟨i, hi⟩ => hR t ⟨i, by simp [hi]⟩)

theorem fetchAll_alike {e e' : Env} (he : SameButTokens R e e') {s s' : State}
    (h : Alike R keys s s') (n : Nat) :
    Alike R keys (fetchAll e s n).1 (fetchAll e' s' n).1 ∧
      SameAsked R (fetchAll e s n).2 (fetchAll e' s' n).2 := by
  obtain ⟨c, r, rfl, hc, hr, hs⟩ := h.other
  have h1 := fetchLoop_alike he (e.orderIds s.options.locals) (n := n) hc
  simp only [fetchAll, ← he.orderIds]
  generalize fetchLoop e (e.orderIds s.options.locals) n s.cache = x at h1
  generalize fetchLoop e' (e.orderIds s.options.locals) n c = y at h1
  obtain ⟨c1, q1⟩ := x
  obtain ⟨c2, q2⟩ := y
  obtain ⟨g1, g2⟩ := h1
  simp only
  by_cases h2 : s.options.locals.isEmpty = true
  · rw [if_pos h2, if_pos h2]
    have hl : q1.length = q2.length := Pairs.length g2
    have ha := he.answer (n + q1.length) none
    rw [← hl]
    generalize e.answer (n + q1.length) none = u at ha
    generalize e'.answer (n + q1.length) none = v at ha
    cases ha with
    | token ht => exact ⟨⟨SameCache.set g1 _ ht, hr, hs, rfl⟩, Pairs.append g2 (.cons ⟨rfl, .token ht⟩ .nil)⟩
    | error k => exact ⟨⟨g1, hr, hs, rfl⟩, Pairs.append g2 (.cons ⟨rfl, .error k⟩ .nil)⟩
  · rw [if_neg h2, if_neg h2]
    exact ⟨⟨g1, hr, hs, rfl⟩, g2⟩

theorem populate_alike {e e' : Env} (he : SameButTokens R e e') {s s' : State}
    (h : Alike R keys s s') :
    Alike R keys (populate e s).1 (populate e' s').1 ∧
      SameAsked R (populate e s).2 (populate e' s').2 := by
  obtain ⟨c, r, e1, hc, hr, hs⟩ := h.other
  have ht : s'.hasTokenManager = s.hasTokenManager := by rw [e1]
  have hsel : s'.selected = s.selected := by rw [e1]
  have hcc : s'.cache = c := by rw [e1]
  unfold populate
  rw [ht]
  by_cases h1 : (!s.hasTokenManager) = true
  · rw [if_pos h1, if_pos h1]; exact ⟨h, .nil⟩
  · rw [if_neg h1, if_neg h1]
    cases hx : s.selected with
    | none => rw [hx] at hsel; rw [hsel]; exact fetchAll_alike he h 0
    | some i =>
      rw [hx] at hsel
      rw [hsel]
      simp only
      rw [hcc, SameCache.has hc i, Pairs.length hc]
      by_cases h2 : (cacheHas c i && c.length == 1) = true
      · rw [if_pos h2, if_pos h2]; exact ⟨h, .nil⟩
      · rw [if_neg h2, if_neg h2]
        have ha := he.answer 0 (some i)
        generalize e.answer 0 (some i) = u at ha
        generalize e'.answer 0 (some i) = v at ha
        cases ha with
        | token ht => exact ⟨⟨.cons ⟨rfl, ht⟩ .nil, by rw [e1]; exact hr, by rw [e1]; exact hs, by rw [e1]⟩, .cons ⟨rfl, .token ht⟩ .nil⟩
        | error k =>
          have := fetchAll_alike he h 1
          exact ⟨this.1, .cons ⟨rfl, .error k⟩ this.2⟩

theorem askedLog_alike {q q' : Asked} (h : SameAsked R q q') (why : Nat → String) :
    ∀ n, askedLog why n q = askedLog why n q' := by
  induction h with
  | nil => intro n; rfl
  | @cons a b as bs h1 _ ih =>
    intro n
    obtain ⟨i, x⟩ := a
    obtain ⟨j, y⟩ := b
    obtain ⟨h2, h3⟩ := h1
    simp only at h2 h3
    subst h2
    cases h3 with
    | token _ => cases i <;> exact ih _
    | error k => cases i <;> simp only [askedLog, ih]

theorem attachLog_alike {c c'} (h : SameCache R c c') : attachLog c = attachLog c' := by
  unfold attachLog
  induction h with
  | nil => rfl
  | cons h1 _ ih => simp only [List.flatMap_cons, ih, h1.identity]

/-- What is seen of two calls of `GetBytesForS2A`, but for the state. -/
def SameOut (R : Bytes → Bytes → Prop) (st st' : Status) (q q' : Asked) : Prop :=
  st.code = st'.code ∧ st.consumed = st'.consumed ∧ Maybe (SameRequest R) st.buffer st'.buffer ∧
    SameAsked R q q'

theorem SameOut.fail (c : StatusCode) : SameOut R (.fail c) (.fail c) [] [] :=
  ⟨rfl, rfl, .none, .nil⟩

/-- The results of two such calls. -/
def SameSent (R : Bytes → Bytes → Prop) (keys : Prop) (x y : (State × Status × Asked) × Said) : Prop :=
  Alike R keys x.1.1 y.1.1 ∧ SameOut R x.1.2.1 y.1.2.1 x.1.2.2 y.1.2.2 ∧ x.2 = y.2

theorem finishRequestT_alike {e e' : Env} (he : SameButTokens R e e') {s s' : State}
    (h : Alike R keys s s') (why : Nat → String) (kind : ReqKind) (error : String) :
    SameSent R keys (finishRequestT why e s kind error) (finishRequestT why e' s' kind error) := by
  have h1 := populate_alike he h
  have hlog : populateLog why e s = populateLog why e' s' := by
    obtain ⟨c, r, e1, _⟩ := h.other
    unfold populateLog
    rw [askedLog_alike h1.2 why 0]
    rw [show s'.hasTokenManager = s.hasTokenManager by rw [e1]]
  simp only [finishRequestT, hlog]
  generalize populate e s = x at h1
  generalize populate e' s' = y at h1
  obtain ⟨s1, q1⟩ := x
  obtain ⟨s2, q2⟩ := y
  obtain ⟨g1, g2⟩ := h1
  have ho := he.orderTokens _ _ g1.cache
  rw [he.serializeFails]
  simp only [attachLog_alike ho]
  by_cases h2 : e'.serializeFails = true
  · rw [if_pos h2, if_pos h2]
    exact ⟨g1, ⟨rfl, rfl, .none, g2⟩, rfl⟩
  · rw [if_neg h2, if_neg h2]
    refine ⟨g1, ⟨rfl, rfl, .some ⟨kind, _, _, rfl, rfl, ?_⟩, g2⟩, rfl⟩
    refine Pairs.map ho ?_
    intro a b hab
    exact ⟨by simp only [mechanism, hab.identity], _, _, hab.token, rfl, rfl⟩

theorem getClientStartT_alike {e e' : Env} (he : SameButTokens R e e') {s s' : State}
    (h : Alike R keys s s') (why : Nat → String) :
    SameSent R keys (getClientStartT why e s) (getClientStartT why e' s') := by
  have h1 : clientStartT e s = clientStartT e' s' := by
    obtain ⟨c, r, rfl, _⟩ := h.other
    simp only [clientStartT, he.orderIds]
  unfold getClientStartT
  rw [h1]
  cases clientStartT e' s' with
  | error x => exact ⟨h, .fail _, rfl⟩
  | ok m => exact finishRequestT_alike he h why _ _

theorem getServerStartT_alike {e e' : Env} (he : SameButTokens R e e') {s s' : State}
    (h : Alike R keys s s') (why : Nat → String) (bytes : Option Bytes) :
    SameSent R keys (getServerStartT why e s bytes) (getServerStartT why e' s' bytes) := by
  have h1 : serverStartT e s bytes = serverStartT e' s' bytes := by
    obtain ⟨c, r, rfl, _⟩ := h.other
    simp only [serverStartT, he.orderIds]
  unfold getServerStartT
  rw [h1]
  cases serverStartT e' s' bytes with
  | error x => exact ⟨h, .fail _, rfl⟩
  | ok m => exact finishRequestT_alike he h why _ _

theorem getBytesForS2AT_alike {e e' : Env} (he : SameButTokens R e e') {s s' : State}
    (h : Alike R keys s s') (why : Nat → String) (bytes : Option Bytes) :
    SameSent R keys (getBytesForS2AT why e s bytes) (getBytesForS2AT why e' s' bytes) := by
  obtain ⟨c, r, e1, hc, hr, hs⟩ := h.other
  have hfirst : s'.first = s.first := by rw [e1]
  have hcl : s'.isClient = s.isClient := by rw [e1]
  have hstart : SameSent R keys
      (if s.isClient then getClientStartT why e s else getServerStartT why e s bytes)
      (if s.isClient then getClientStartT why e' s' else getServerStartT why e' s' bytes) := by
    by_cases h1 : s.isClient = true
    · rw [if_pos h1, if_pos h1]; exact getClientStartT_alike he h why
    · rw [if_neg h1, if_neg h1]; exact getServerStartT_alike he h why bytes
  simp only [getBytesForS2AT, hfirst, hcl]
  by_cases h1 : s.first = true
  · rw [if_pos h1, if_pos h1]
    by_cases h2 : (s.isClient && bytes.getD [] != []) = true
    · rw [if_pos h2, if_pos h2]; exact ⟨h, .fail _, rfl⟩
    · rw [if_neg h2, if_neg h2]
      generalize (if s.isClient then getClientStartT why e s else getServerStartT why e s bytes) = x
        at hstart
      generalize (if s.isClient then getClientStartT why e' s' else getServerStartT why e' s' bytes) = y
        at hstart
      obtain ⟨⟨s1, st1, q1⟩, said1⟩ := x
      obtain ⟨⟨s2, st2, q2⟩, said2⟩ := y
      obtain ⟨g1, g2, g3⟩ := hstart
      simp only at g1 g2 g3 ⊢
      refine ⟨?_, g2, g3⟩
      show Alike R keys (if st1.code = .ok then { s1 with first := false } else s1)
        (if st2.code = .ok then { s2 with first := false } else s2)
      rw [g2.1]
      by_cases h3 : st2.code = .ok
      · rw [if_pos h3, if_pos h3]
        obtain ⟨c, r, rfl, h4, h5, h6⟩ := g1.other
        exact ⟨h4, h5, h6, rfl⟩
      · rw [if_neg h3, if_neg h3]; exact g1
  · rw [if_neg h1, if_neg h1]
    by_cases h2 : (bytes.getD [] == []) = true
    · rw [if_pos h2, if_pos h2]; exact ⟨h, .fail _, rfl⟩
    · rw [if_neg h2, if_neg h2]; exact finishRequestT_alike he h why _ _

/-- A session state, a result without the secrets. -/
def stateWithoutKeys (y : SessionState) : SessionState := { y with inKey := [], outKey := [] }
def resultWithoutKeys (x : SessionResult) : SessionResult :=
  { x with state := x.state.map stateWithoutKeys }

theorem handleResultT_alike {s s' : State} (h : Alike R keys s s') {r r' : SessionResult}
    (hr : resultWithoutKeys r = resultWithoutKeys r') (hk : ¬ keys → r = r') :
    Alike R keys (handleResultT s r).1.1 (handleResultT s' r').1.1 ∧
      (handleResultT s r).1.2 = (handleResultT s' r').1.2 ∧
      (handleResultT s r).2 = (handleResultT s' r').2 := by
  obtain ⟨c, res, e1, hc, hres, hs⟩ := h.other
  obtain ⟨ap, st, pid, lid, lcf, pcf⟩ := r
  obtain ⟨ap', st', pid', lid', lcf', pcf'⟩ := r'
  simp only [resultWithoutKeys, SessionResult.mk.injEq] at hr hk
  obtain ⟨rfl, hst, rfl, rfl, rfl, rfl⟩ := hr
  subst e1
  cases st with
  | none =>
    cases st' with
    | some y => cases hst
    | none => exact ⟨⟨hc, hres, hs, rfl⟩, rfl, rfl⟩
  | some x =>
    cases st' with
    | none => cases hst
    | some y =>
      obtain ⟨tv, cs, iseq, oseq, ik, ok, cid, res⟩ := x
      obtain ⟨tv', cs', iseq', oseq', ik', ok', cid', res'⟩ := y
      simp only [Option.map_some, Option.some.injEq, stateWithoutKeys, SessionState.mk.injEq] at hst
      obtain ⟨rfl, rfl, rfl, rfl, _, _, rfl, rfl⟩ := hst
      have hk' : ¬ keys → ik = ik' ∧ ok = ok' := by
        intro hn
        have := (hk hn).2.1
        simp only [Option.some.injEq, SessionState.mk.injEq] at this
        exact ⟨this.2.2.2.2.1, this.2.2.2.2.2.1⟩
      simp only [handleResultT]
      cases tlsVersionFromProto tv with
      | error k => exact ⟨⟨hc, rfl, fun _ => rfl, rfl⟩, rfl, rfl⟩
      | ok v =>
        simp only
        cases ciphersuiteFromProto cs with
        | error k => exact ⟨⟨hc, rfl, fun _ => rfl, rfl⟩, rfl, rfl⟩
        | ok su =>
          simp only
          cases lid with
          | none =>
            refine ⟨⟨hc, rfl, ?_, rfl⟩, rfl, rfl⟩
            intro hn
            obtain ⟨rfl, rfl⟩ := hk' hn
            rfl
          | some li =>
            refine ⟨⟨hc, rfl, ?_, rfl⟩, rfl, rfl⟩
            intro hn
            obtain ⟨rfl, rfl⟩ := hk' hn
            rfl

/-- The end of `GetBytesForPeer`. -/
def afterStatusT (s : State) (frames : Bytes) (consumed : Nat) (result : Option SessionResult) :
    (State × Status) × Said :=
  match result with
  | none => ((s, ⟨.ok, consumed, some frames⟩), ⟨[], ""⟩)
  | some r =>
    match handleResultT { s with finished := true } r with
    | ((s, some c), said) => ((s, .fail c), said)
    | ((s, none), said) => ((s, ⟨.ok, consumed, some frames⟩), ⟨said.log, ""⟩)

theorem afterStatusT_alike {u v : State} (h : Alike R keys u v) {fr : Bytes} {bc : Nat}
    {res res' : Option SessionResult}
    (hres : res.map resultWithoutKeys = res'.map resultWithoutKeys) (hk : ¬ keys → res = res') :
    Alike R keys (afterStatusT u fr bc res).1.1 (afterStatusT v fr bc res').1.1 ∧
      (afterStatusT u fr bc res).1.2 = (afterStatusT v fr bc res').1.2 ∧
      (afterStatusT u fr bc res).2 = (afterStatusT v fr bc res').2 := by
  cases res with
  | none =>
    cases res' with
    | some z => cases hres
    | none => exact ⟨h, rfl, rfl⟩
  | some w =>
    cases res' with
    | none => cases hres
    | some z =>
      simp only [Option.map_some, Option.some.injEq] at hres hk
      have hf : Alike R keys { u with finished := true } { v with finished := true } := by
        obtain ⟨c, r, e1, hc, hr, hs⟩ := h.other
        subst e1
        exact ⟨hc, hr, hs, rfl⟩
      have hw := handleResultT_alike hf (r := w) (r' := z) hres hk
      simp only [afterStatusT]
      generalize handleResultT { u with finished := true } w = m at hw
      generalize handleResultT { v with finished := true } z = n at hw
      obtain ⟨⟨m1, m2⟩, m3⟩ := m
      obtain ⟨⟨n1, n2⟩, n3⟩ := n
      simp only at hw
      obtain ⟨g1, rfl, rfl⟩ := hw
      cases m2 with
      | none => exact ⟨g1, rfl, rfl⟩
      | some k => exact ⟨g1, rfl, rfl⟩

theorem getBytesForPeerT_alike {s s' : State} (h : Alike R keys s s') {dec dec' : Bytes → Option SessionResp}
    {b b' : Option Bytes} (hb : b.getD [] = [] ↔ b'.getD [] = [])
    (hd : (response dec b).map withoutKeys = (response dec' b').map withoutKeys)
    (hk : ¬ keys → response dec b = response dec' b') :
    Alike R keys (getBytesForPeerT dec s b).1.1 (getBytesForPeerT dec' s' b').1.1 ∧
      (getBytesForPeerT dec s b).1.2 = (getBytesForPeerT dec' s' b').1.2 ∧
      (getBytesForPeerT dec s b).2 = (getBytesForPeerT dec' s' b').2 := by
  by_cases h1 : b.getD [] = []
  · have h2 := hb.1 h1
    unfold getBytesForPeerT
    rw [if_pos (by rw [h1]; rfl), if_pos (by rw [h2]; rfl)]
    exact ⟨h, rfl, rfl⟩
  · have h2 : b'.getD [] ≠ [] := fun x => h1 (hb.2 x)
    unfold response at hd hk
    rw [if_neg (by simpa using h1), if_neg (by simpa using h2)] at hd hk
    unfold getBytesForPeerT
    rw [if_neg (by simpa using h1), if_neg (by simpa using h2)]
    generalize dec (b.getD []) = x at hd hk
    generalize dec' (b'.getD []) = y at hd hk
    cases x with
    | none =>
      cases y with
      | some y => cases hd
      | none => exact ⟨h, rfl, rfl⟩
    | some x =>
      cases y with
      | none => cases hd
      | some y =>
        obtain ⟨li, fr, bc, res, st⟩ := x
        obtain ⟨li', fr', bc', res', st'⟩ := y
        simp only [Option.map_some, Option.some.injEq, withoutKeys, SessionResp.mk.injEq] at hd hk
        obtain ⟨rfl, rfl, rfl, hres, rfl⟩ := hd
        have hk' : ¬ keys → res = res' := fun hn => (hk hn).2.2.2.1
        clear hk
        simp only
        cases st with
        | none => exact ⟨h, rfl, rfl⟩
        | some status =>
          simp only
          by_cases h3 : status.code ≠ 0
          · rw [if_pos h3, if_pos h3]; exact ⟨h, rfl, rfl⟩
          · rw [if_neg h3, if_neg h3]
            have hrest : ∀ u v, Alike R keys u v → Alike R keys (afterStatusT u fr bc res).1.1 (afterStatusT v fr bc res').1.1 ∧
                (afterStatusT u fr bc res).1.2 = (afterStatusT v fr bc res').1.2 ∧
                (afterStatusT u fr bc res).2 = (afterStatusT v fr bc res').2 :=
              fun u v huv => afterStatusT_alike huv hres hk'
            cases li with
            | none => exact hrest s s' h
            | some i =>
              refine hrest { s with selected := some (identityFromProto (some i)) } { s' with selected := some (identityFromProto (some i)) } ?_
              obtain ⟨c, r, e1, hc, hr, hs⟩ := h.other
              subst e1
              exact ⟨hc, hr, hs, rfl⟩

theorem createT_total (L : Lib) (fIn fOut : KeyFault) (xIn xOut : LibText) (o : Frame.Options) :
    ∃ x, Frame.createT L fIn fOut xIn xOut o = .ok x := by
  obtain ⟨x, hx, _⟩ := frame_create_total L fIn fOut o
  have := Frame.createT_quiet L fIn fOut xIn xOut o
  rw [hx] at this
  cases h : Frame.createT L fIn fOut xIn xOut o with
  | error u => rw [h] at this; cases this
  | ok y => exact ⟨y, rfl⟩

/-- The result of a call of `CreateFrameProtector`. -/
def SameMade (R : Bytes → Bytes → Prop) (keys : Prop)
    (x y : (State × Except StatusCode Frame.State) × Said) : Prop :=
  Alike R keys x.1.1 y.1.1 ∧ (¬ keys → x.1.2 = y.1.2 ∧ x.2 = y.2)

/-- The end of `CreateFrameProtector`. -/
def makeT (L : Lib) (fIn fOut : KeyFault) (xIn xOut : LibText) (s : State) (r : HsResult) :
    Exec ((State × Except StatusCode Frame.State) × Said) := do
  match ← Frame.createT L fIn fOut xIn xOut (frameOptions s r) with
  | .ok p => return (({ s with hasFactory := false }, .ok p), ⟨[], ""⟩)
  | .error (c, m) => return (({ s with hasFactory := false }, .error c), ⟨[], m⟩)

theorem makeT_alike (L : Lib) (fIn fOut : KeyFault) (xIn xOut : LibText)
    {s s' : State} (h : Alike R keys s s') {a b : HsResult} (hab : ¬ keys → a = b) :
    Both (SameMade R keys) (makeT L fIn fOut xIn xOut s a) (makeT L fIn fOut xIn xOut s' b) := by
  obtain ⟨c, r, e1, hc, hr, hs⟩ := h.other
  have hA : Alike R keys { s with hasFactory := false } { s' with hasFactory := false } := by
    subst e1; exact ⟨hc, hr, hs, rfl⟩
  have hab : ¬ keys → frameOptions s a = frameOptions s' b := by
    intro hn
    rw [hab hn, e1]
    rfl
  obtain ⟨u, hu⟩ := createT_total L fIn fOut xIn xOut (frameOptions s a)
  obtain ⟨v, hv⟩ := createT_total L fIn fOut xIn xOut (frameOptions s' b)
  have huv : ¬ keys → u = v := by
    intro hn
    rw [hab hn, hv] at hu
    cases hu
    rfl
  unfold makeT
  rw [hu, hv, exec_bind_ok, exec_bind_ok]
  by_cases hn : keys
  · cases u <;> cases v <;> exact ⟨hA, fun h => absurd hn h⟩
  · have := huv hn
    subst this
    cases u <;> exact ⟨hA, fun _ => ⟨rfl, rfl⟩⟩

theorem createFrameProtectorT_alike (L : Lib) (fIn fOut : KeyFault) (xIn xOut : LibText)
    {s s' : State} (h : Alike R keys s s') :
    Both (SameMade R keys) (createFrameProtectorT L fIn fOut xIn xOut s)
      (createFrameProtectorT L fIn fOut xIn xOut s') := by
  have hfin : s'.finished = s.finished := by
    obtain ⟨c, r, e1, _⟩ := h.other; rw [e1]
  have e : ∀ s : State, createFrameProtectorT L fIn fOut xIn xOut s =
      if !s.finished then .ok ((s, .error .failedPrecondition), ⟨["Handshake is not finished."], "Handshake is not finished."⟩)
      else match s.result with
        | none => .error .nullDeref
        | some r => makeT L fIn fOut xIn xOut s r := fun _ => rfl
  rw [e, e, hfin]
  by_cases h1 : (!s.finished) = true
  · rw [if_pos h1, if_pos h1]; exact ⟨h, fun _ => ⟨rfl, rfl⟩⟩
  · rw [if_neg h1, if_neg h1]
    have hr := h.result
    have hs := h.same
    cases hx : s.result with
    | none =>
      cases hy : s'.result with
      | some _ => rw [hx, hy] at hr; cases hr
      | none => exact rfl
    | some a =>
      cases hy : s'.result with
      | none => rw [hx, hy] at hr; cases hr
      | some b =>
        refine makeT_alike L fIn fOut xIn xOut h fun hn => ?_
        have := hs hn
        rw [hx, hy] at this
        exact Option.some.inj this

/-- The result of a call. -/
def SameStep (R : Bytes → Bytes → Prop) (keys : Prop) (x y : (State × Event) × Said) : Prop :=
  Alike R keys x.1.1 y.1.1 ∧ SameSeen R keys (x.1.2, x.2) (y.1.2, y.2)

theorem stepT_alike (L : Lib) (why : Nat → String) (xIn xOut : LibText) {s s' : State}
    (h : Alike R keys s s') {op op' : Op} (ho : SameCall R keys op op') :
    Both (SameStep R keys) (stepT L why xIn xOut s op) (stepT L why xIn xOut s' op') := by
  cases ho with
  | forS2A bytes he =>
    have h1 := getBytesForS2AT_alike he h why bytes
    simp only [stepT]
    generalize getBytesForS2AT why _ s bytes = x at h1
    generalize getBytesForS2AT why _ s' bytes = y at h1
    obtain ⟨⟨s1, ⟨c1, n1, b1⟩, q1⟩, said1⟩ := x
    obtain ⟨⟨s2, ⟨c2, n2, b2⟩, q2⟩, said2⟩ := y
    obtain ⟨g1, ⟨g2, g3, g4, g5⟩, g6⟩ := h1
    simp only at g1 g2 g3 g4 g5 g6
    subst g2 g3 g6
    exact ⟨g1, .forS2A g4 g5⟩
  | @forPeer dec dec' b b' hb hd hk =>
    have h1 := getBytesForPeerT_alike h hb hd hk
    simp only [stepT]
    generalize getBytesForPeerT dec s b = x at h1
    generalize getBytesForPeerT dec' s' b' = y at h1
    obtain ⟨⟨s1, st1⟩, said1⟩ := x
    obtain ⟨⟨s2, st2⟩, said2⟩ := y
    simp only at h1
    obtain ⟨g1, rfl, rfl⟩ := h1
    exact ⟨g1, .forPeer hd hk⟩
  | isFinished =>
    have : isHandshakeFinished s' = isHandshakeFinished s := by
      obtain ⟨c, r, e1, _⟩ := h.other; rw [e1]; rfl
    simp only [stepT, this]
    exact ⟨h, .isFinished _ _⟩
  | createFrameProtector fIn fOut =>
    simp only [stepT]
    refine Both.bind (createFrameProtectorT_alike L fIn fOut xIn xOut h) ?_
    intro a b hab
    exact ⟨hab.1, .createFrameProtector hab.2⟩
  | getContext =>
    obtain ⟨c, r, e1, hc, hr, hs⟩ := h.other
    have hfin : s'.finished = s.finished := by rw [e1]
    have hctx : s'.context = s.context := by rw [e1]
    simp only [stepT, getS2AContextT, hfin, hctx]
    by_cases h1 : (!s.finished) = true
    · rw [if_pos h1, if_pos h1]; exact ⟨h, .getContext _ _⟩
    · rw [if_neg h1, if_neg h1]
      refine ⟨?_, .getContext _ _⟩
      subst e1
      exact ⟨hc, hr, hs, rfl⟩

theorem runT_alike (L : Lib) {ops ops' : List (Op × Texts)}
    (ho : Pairs (fun a b => SameCall R keys a.1 b.1 ∧ a.2 = b.2) ops ops') : ∀ {s s' : State},
    Alike R keys s s' →
    Both (fun x y => Alike R keys x.1 y.1 ∧ Pairs (SameSeen R keys) x.2 y.2)
      (runT L s ops) (runT L s' ops') := by
  induction ho with
  | nil => intro s s' h; exact ⟨h, .nil⟩
  | @cons a b as bs h1 _ ih =>
    intro s s' h
    obtain ⟨op, x⟩ := a
    obtain ⟨op', x'⟩ := b
    obtain ⟨h1, rfl⟩ := h1
    simp only [runT]
    refine Both.bind (stepT_alike L x.why x.xIn x.xOut h h1) ?_
    intro u v huv
    refine Both.bind (ih huv.1) ?_
    intro p q hpq
    exact ⟨hpq.1, .cons huv.2 hpq.2⟩

theorem Pairs.eq {α : Type} {S : α → α → Prop} {a b : List α} (h : Pairs S a b)
    (hs : ∀ x y, S x y → x = y) : a = b := by
  induction h with
  | nil => rfl
  | cons h1 _ ih => rw [hs _ _ h1, ih]

theorem SameButTokens.refl (e : Env) : SameButTokens Eq e e where
  answer n q := by
    cases e.answer n q with
    | error c => exact .error c
    | ok t => exact .token rfl
  orderIds _ := rfl
  orderTokens l l' h := by
    rw [← Pairs.eq h fun x y hxy => Prod.ext hxy.identity hxy.token]
    generalize e.orderTokens l = m
    induction m with
    | nil => exact .nil
    | cons x xs ih => exact .cons ⟨rfl, rfl⟩ ih
  serializeFails := rfl

theorem OtherSecrets.call {op op' : Op} (h : Spec.OtherSecrets op op') : SameCall Eq True op op' := by
  cases h with
  | same op =>
    cases op with
    | forS2A e b => exact .forS2A b (SameButTokens.refl e)
    | forPeer d b => exact .forPeer Iff.rfl rfl fun _ => rfl
    | isFinished => exact .isFinished
    | createFrameProtector a b => exact .createFrameProtector a b
    | getContext => exact .getContext
  | forPeer h1 h2 => exact .forPeer h1 h2 fun h => absurd trivial h

theorem SameRequest.eq {b b' : Bytes} (h : SameRequest Eq b b') : b = b' := by
  obtain ⟨k, ms, ms', rfl, rfl, h1⟩ := h
  rw [Pairs.eq h1]
  rintro ⟨i, t⟩ ⟨j, u⟩ ⟨h2, v, w, h3, h4, h5⟩
  simp only at h2 h4 h5
  rw [h2, h4, h5, h3]

theorem SameSeen.secret {x y : Event × Said} (h : SameSeen Eq True x y) :
    Spec.SameButProtector x y := by
  cases h with
  | @forS2A bytes code consumed b b' q q' said hb hq =>
    have hb' : b = b' := by
      cases hb with
      | none => rfl
      | some h => rw [SameRequest.eq h]
    have hq' : q = q' := Pairs.eq hq (by
      rintro ⟨i, t⟩ ⟨j, u⟩ ⟨h2, h3⟩
      simp only at h2 h3
      subst h2
      cases h3 with
      | token h => rw [h]
      | error c => rfl)
    rw [hb', hq']
    exact .same _
  | forPeer h1 h2 => exact .forPeer h1
  | isFinished b said => exact .same _
  | createFrameProtector _ => exact .createFrameProtector _ _ _ _
  | getContext c said => exact .same _

theorem Pairs.imp {α β : Type} {S T : α → β → Prop} {a b} (h : Pairs S a b)
    (hst : ∀ x y, S x y → T x y) : Pairs T a b := by
  induction h with
  | nil => exact .nil
  | cons h1 _ ih => exact .cons (hst _ _ h1) ih

theorem Alike.created {o : Options} {s : State} (h : create o = some s) : Alike R keys s s := by
  refine Alike.refl ?_
  rintro t ⟨i, hi⟩
  have : s.cache = [] := by
    unfold create at h
    split at h
    · cases h
    · cases h
    · cases h; rfl
  rw [this] at hi
  cases hi

end S2A.Proxy
