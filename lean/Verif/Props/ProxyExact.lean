import Verif.Lemmas.ProxyResult
import Verif.Props.Proxy
/-
The handshake proxy, in every history: exactly when `CreateFrameProtector` is undefined, fails
and succeeds (C46), what `GetS2AContext` returns (C50), that identities are never checked (C49),
when the tokens of other identities are sent (C47), when bytes for the peer are dropped (C54),
and that all frame protectors made from the same result share keys and nonces (C53).
-/
namespace S2A.Proxy
open Proto Util
open Spec (latest asks carried announced requests request readRequest results lastStated
  IsComplete Waiting)
open Demo

/-! ## C46 -/

/-- Every history of calls, every call of `CreateFrameProtector`.
* If no response with status OK and a result was received, it fails.
* If such responses were received but none of their results had a session state, the behaviour
  is undefined (null pointer).
* Otherwise the last result with a session state counts, whether or not later results came
  without one.  If its TLS version and ciphersuite are supported, the frame protector is
  created from exactly its values (the connection id and the local identity are lost if the
  local identity is missing), and the configured address.  If one of them is not supported,
  the call fails. -/
theorem C46_every_history (L : Lib) (o : Options) (opts : TlsOptions) (s : State)
    (evs : List Event) (h : Reach L o s evs) (ho : o.options = some opts) (fIn fOut : KeyFault) :
    (results evs = [] →
      createFrameProtector L fIn fOut s = .ok (s, .error .failedPrecondition)) ∧
    (results evs ≠ [] → lastStated evs = none →
      createFrameProtector L fIn fOut s = .error .nullDeref) ∧
    (∀ r st, lastStated evs = some r → r.state = some st →
      (∀ v cs, Spec.wireTlsVersion v = some st.tlsVersion →
        Spec.wireCiphersuite cs = some st.ciphersuite →
        ∃ factory, (factory = true → o.hasFactory = true) ∧
          (createFrameProtector L fIn fOut s).map (·.2) =
            Frame.create L fIn fOut
              (Spec.usedOptions opts.s2aAddress factory st v cs r.localIdentity)) ∧
      ((∀ v cs, ¬ (Spec.wireTlsVersion v = some st.tlsVersion ∧
        Spec.wireCiphersuite cs = some st.ciphersuite)) →
        ∃ s' c, c ≠ .ok ∧ createFrameProtector L fIn fOut s = .ok (s', .error c))) := by
  have hi := h.inv
  have hso : s.options = opts := by
    have := hi.config.options
    rw [ho] at this
    exact (Option.some.inj this).symm
  have hfin := finished_iff_results h
  have hres := h.result
  refine ⟨?_, ?_, ?_⟩
  · intro hn
    have : s.finished = false := by
      rw [← Bool.not_eq_true, hfin]
      exact fun h => h hn
    unfold createFrameProtector
    rw [this]
    rfl
  · intro hn hl
    unfold createFrameProtector
    rw [hfin.2 hn, hres, hl]
    rfl
  · intro r st hl hst
    have hne : results evs ≠ [] := by
      intro hn
      unfold lastStated at hl
      rw [hn] at hl
      cases hl
    have hk : s.result = some (kept r st) := by
      rw [hres, hl]
      simp [keptOf, hst]
    have hc : createFrameProtector L fIn fOut s =
        (Frame.create L fIn fOut (frameOptions s (kept r st))).bind
          fun p => .ok ({ s with hasFactory := false }, p) := by
      unfold createFrameProtector
      rw [hfin.2 hne, hk]
      rfl
    constructor
    · intro v cs hv hcs
      refine ⟨s.hasFactory, hi.config.hasFactory, ?_⟩
      have e : frameOptions s (kept r st) =
          Spec.usedOptions opts.s2aAddress s.hasFactory st v cs r.localIdentity := by
        unfold kept
        rw [tlsVersionFromProto_ok.2 hv]
        simp only []
        rw [ciphersuiteFromProto_ok.2 hcs]
        simp only []
        cases r.localIdentity <;>
          simp only [frameOptions, Spec.usedOptions, Spec.protectorOptions, hso]
      rw [hc, e]
      cases Frame.create L fIn fOut
        (Spec.usedOptions opts.s2aAddress s.hasFactory st v cs r.localIdentity) <;> rfl
    · intro hun
      obtain ⟨x, hx, hx2⟩ := frame_create_total L fIn fOut (frameOptions s (kept r st))
      cases x with
      | error c => exact ⟨_, c, hx2 c rfl, by rw [hc, hx]; rfl⟩
      | ok p =>
        exfalso
        obtain ⟨n1, _, su, n2, n3, _⟩ := frame_create_needs hx
        unfold kept at n1 n2 n3
        cases hv : tlsVersionFromProto st.tlsVersion with
        | error c =>
          rw [hv] at n1
          cases n1
        | ok v =>
          simp only [hv] at n1 n2 n3
          cases hcs : ciphersuiteFromProto st.ciphersuite with
          | ok cs =>
            exact hun v cs ⟨tlsVersionFromProto_ok.1 hv, ciphersuiteFromProto_ok.1 hcs⟩
          | error c =>
            simp only [hcs] at n2 n3
            cases n2
            cases n3

/-- So `CreateFrameProtector` has undefined behaviour in exactly these histories: a response
with status OK and a result was received, but no such result had a session state. -/
theorem C46_undefined_iff (L : Lib) (o : Options) (s : State) (evs : List Event)
    (h : Reach L o s evs) (fIn fOut : KeyFault) :
    (∃ u, createFrameProtector L fIn fOut s = .error u) ↔
      results evs ≠ [] ∧ ∀ r ∈ results evs, r.state = none := by
  have ho := h.inv.config.options
  generalize s.options = opts at ho
  obtain ⟨h1, h2, h3⟩ := C46_every_history L o opts s evs h ho fIn fOut
  have hnone : lastStated evs = none ↔ ∀ r ∈ results evs, r.state = none := by
    unfold lastStated
    rw [List.getLast?_eq_none_iff, List.filter_eq_nil_iff]
    simp
  rw [← hnone]
  constructor
  · rintro ⟨u, hu⟩
    by_cases hn : results evs = []
    · rw [h1 hn] at hu; cases hu
    · refine ⟨hn, ?_⟩
      cases hl : lastStated evs with
      | none => rfl
      | some r =>
        exfalso
        obtain ⟨st, hst⟩ := lastStated_state hl
        obtain ⟨g1, g2⟩ := h3 r st hl hst
        by_cases hs : ∃ v cs, Spec.wireTlsVersion v = some st.tlsVersion ∧
            Spec.wireCiphersuite cs = some st.ciphersuite
        · obtain ⟨v, cs, e1, e2⟩ := hs
          obtain ⟨fac, _, he⟩ := g1 v cs e1 e2
          obtain ⟨x, hx, _⟩ := frame_create_total L fIn fOut
            (Spec.usedOptions opts.s2aAddress fac st v cs r.localIdentity)
          rw [hx, hu] at he
          cases he
        · obtain ⟨_, c, _, he⟩ := g2 (fun v cs hh => hs ⟨v, cs, hh⟩)
          rw [hu] at he
          cases he
  · rintro ⟨hn, hl⟩
    exact ⟨_, h2 hn hl⟩

/-- A result as in `Demo.done` with other parts. -/
def Demo.doneWith (r : SessionResult) : Op := says { done with result := some r }

/-- Witnesses: no result; a result without state; then one without local identity, one with an
unsupported ciphersuite; a complete result followed by one without state still counts. -/
example :
    results (hist client [.forS2A env none, says frames]).2 = [] ∧
    results (hist client [doneWith { result with state := none }]).2 ≠ [] ∧
    lastStated (hist client [doneWith { result with state := none }]).2 = none ∧
    lastStated (hist client [doneWith { result with localIdentity := none }]).2 =
      some { result with localIdentity := none } ∧
    lastStated (hist client [doneWith result, doneWith { result with state := none }]).2 =
      some result ∧
    lastStated (hist client
      [doneWith { result with state := some { state with ciphersuite := 9 } }]).2 =
      some { result with state := some { state with ciphersuite := 9 } } ∧
    (∀ cs, Spec.wireCiphersuite cs ≠ some 9) ∧
    runs client [.forS2A env none, says frames] = true ∧
    runs client [doneWith result, doneWith { result with state := none }] = true := by
  refine ⟨by decide +kernel, by decide +kernel, by decide +kernel, by decide +kernel,
    by decide +kernel, by decide +kernel, ?_, by decide +kernel, by decide +kernel⟩
  intro cs h
  cases cs <;> simp [Spec.wireCiphersuite] at h

/-! ## C50 -/

/-- Every history of calls, every call of `GetS2AContext`: it fails if no response with status
OK and a result was received; otherwise it succeeds, and returns a context exactly if it is
that of a complete result since which there was neither another complete result nor a call of
`GetS2AContext`.  Otherwise it returns the null pointer. -/
theorem C50_every_history (L : Lib) (o : Options) (s : State) (evs : List Event)
    (h : Reach L o s evs) :
    (results evs = [] → (getS2AContext s).2 = .error .failedPrecondition) ∧
    (results evs ≠ [] → ∃ c, (getS2AContext s).2 = .ok c ∧
      ∀ ctx, c = some ctx ↔ Waiting evs ctx) := by
  have hfin := finished_iff_results h
  constructor
  · intro hn
    have : s.finished = false := by
      rw [← Bool.not_eq_true, hfin]
      exact fun h => h hn
    unfold getS2AContext
    rw [this]
    rfl
  · intro hn
    refine ⟨s.context, ?_, h.context.2⟩
    unfold getS2AContext
    rw [hfin.2 hn]
    rfl

/-- Witness: a complete result, an incomplete one after it, and the context is still the one of
the first; it is gone after the call. -/
example : runs client [doneWith result, doneWith { result with state := none }] = true ∧
    Waiting (hist client [doneWith result, doneWith { result with state := none }]).2
      (Spec.contextOf result state (.spiffeId [108]) .tls1_3 .aes128GcmSha256) ∧
    ¬ ∃ ctx, Waiting (hist client [doneWith result, .getContext]).2 ctx := by
  refine ⟨by decide +kernel, ?_, ?_⟩
  · have hr := reach (o := client)
      (ops := [doneWith result, doneWith { result with state := none }]) (by decide +kernel)
    exact (hr.context.2 _).1 (by decide +kernel)
  · have hr := reach (o := client) (ops := [doneWith result, .getContext]) (by decide +kernel)
    rintro ⟨ctx, hw⟩
    have := (hr.context.2 _).2 hw
    exact absurd this (by
      rw [show (hist client [doneWith result, .getContext]).1.context = none by decide +kernel]
      simp)

/-! ## C49 -/

/-- Identities are never checked: after every history, for every local and every peer identity,
a response with status OK and a complete result with these identities is accepted, and then
reported as the identities of the connection, whatever was announced or configured. -/
theorem C49_never_checked (L : Lib) (o : Options) (s : State) (evs : List Event)
    (h : Reach L o s evs) (resp : SessionResp) (r : SessionResult) (st : SessionState)
    (li : PIdentity) (v : TlsVersion) (cs : Ciphersuite) (hg : Spec.Good resp)
    (hr : resp.result = some r) (hc : Spec.Complete r st li v cs) (bytes : Bytes)
    (hb : bytes ≠ []) (dec : Bytes → Option SessionResp) (hd : dec bytes = some resp) :
    ∃ s' st' ctx, Proxy.step L s (.forPeer dec (some bytes)) = .ok (s', .forPeer (some resp) st') ∧
      st'.code = .ok ∧
      (getS2AContext s').2 = .ok (some ctx) ∧
      ctx.localIdentity = Spec.identityOf (some li) ∧
      ctx.peerIdentity = Spec.identityOf r.peerIdentity := by
  have h1 : response dec (some bytes) = some resp := by simp [response, hb, hd]
  have hs : Proxy.step L s (.forPeer dec (some bytes)) =
      .ok ((getBytesForPeer dec s (some bytes)).1,
        .forPeer (some resp) (getBytesForPeer dec s (some bytes)).2) := by
    rw [← h1]
    rfl
  have hv := C54_forwarded_verbatim_partial dec s bytes hb resp hd hg (by
    rw [hr]
    rintro _ ⟨⟩
    exact ⟨st, li, v, cs, hc⟩)
  refine ⟨_, _, Spec.contextOf r st li v cs, hs, by rw [hv], ?_, rfl, rfl⟩
  have hcar : carried (.forPeer (some resp) (getBytesForPeer dec s (some bytes)).2) = some r := by
    rw [← h1, carried_eq h1 hg, hr]
  obtain ⟨a1, a2, _⟩ := step_complete hs hcar hc
  unfold getS2AContext
  rw [a1, a2]
  rfl

/-- Witness: the hypotheses of `C49_never_checked` hold for every peer identity. -/
example (p : PIdentity) : Spec.Complete { result with peerIdentity := some p } state
    (.spiffeId [108]) .tls1_3 .aes128GcmSha256 ∧ Spec.Good done :=
  ⟨⟨rfl, rfl, rfl, rfl⟩, _, rfl, rfl⟩

/-! ## C47 -/

/-- Once the S2A has announced a local identity: exactly when tokens of other identities are
sent.  A mechanism for another identity is in a request only if the token manager was asked for
a token of the announced identity during this call and gave none; and if so, there is a
mechanism for every local identity but those for which it gave none either during this call.
So the only cause is a refusal for the announced identity, and it always has this effect. -/
theorem C47_others_iff_refused (L : Lib) (o : Options) (opts : TlsOptions) (s : State)
    (evs : List Event) (h : Reach L o s evs) (ho : o.options = some opts) (i : Identity)
    (hi : (evs.filterMap announced).getLast? = some i) (hm : o.hasTokenManager = true) (e : Env)
    (bytes : Option Bytes) (b : Bytes) (asked : Asked)
    (hb : (getBytesForS2A e s bytes).2 = (⟨.ok, 0, some b⟩, asked)) (hl : b.length < 2 ^ 64) :
    ∃ (m : SessionReq) (entries : List (Identity × Bytes)), readRequest b = some m ∧
      m.authMechanisms = entries.map mechanismOf ∧
      (∀ j t, (j, t) ∈ entries → j ≠ i → ∃ c, (some i, .error c) ∈ asked) ∧
      ((∃ c, (some i, .error c) ∈ asked) → ∀ j ∈ opts.locals,
        (∃ t, (j, t) ∈ entries ∧ latest (asks evs ++ asked) j = some t) ∨
        ∃ c, (some j, .error c) ∈ asked) := by
  have hinv := h.inv
  have hso : s.options = opts := by
    have := hinv.config.options
    rw [ho] at this
    exact (Option.some.inj this).symm
  have hs : s.selected = some i := hinv.selected.trans hi
  obtain ⟨p1, p2⟩ := populate_others e s (asks evs) i hinv.cache
    (hinv.config.hasTokenManager.trans hm) hs
  rw [getBytesForS2A_eq] at hb
  cases hp : plan e s bytes with
  | none => rw [hp] at hb; simp [Status.fail] at hb
  | some k =>
    rw [hp] at hb
    simp only at hb
    cases hf : e.serializeFails with
    | true => rw [hf] at hb; simp [Status.fail] at hb
    | false =>
      simp only [hf, if_neg Bool.false_ne_true, Prod.mk.injEq, Status.mk.injEq,
        Option.some.injEq, true_and] at hb
      obtain ⟨rfl, rfl⟩ := hb
      have hperm := e.orderTokens_perm (populate e s).1.cache
      have hok := populate_ok e s (asks evs) hinv.cache
      refine ⟨_, e.orderTokens (populate e s).1.cache, read_reqOf hp hl, ?_, ?_, ?_⟩
      · refine List.map_congr_left fun x _ => ?_
        simp only [mechanism, mechanismOf, identityToProto_eq, Identity.cut, cstr_eq_cut]
      · intro j t hj hne
        exact p1 j t (hperm.mem_iff.1 hj) hne
      · rintro ⟨c, hc⟩ j hj
        rcases (p2 c hc).2 j (hso ▸ hj) with hh | hh
        · obtain ⟨t, ht⟩ := cacheHas_iff.1 hh
          exact .inl ⟨t, hperm.mem_iff.2 ht, hok.last j t ht⟩
        · exact .inr hh

/-- Witness: the announced identity is refused, and the request has the other one's token. -/
example : runs server [.forS2A envRefusing (some [9]), says announce] = true ∧
    ((hist server [.forS2A envRefusing (some [9]), says announce]).2.filterMap
      announced).getLast? = some ⟨.uid, [109]⟩ ∧
    (getBytesForS2A envRefusing
      (hist server [.forS2A envRefusing (some [9]), says announce]).1 (some [9])).2.2.any (fun a =>
        match a with
        | (q, .error _) => decide (q = some ⟨.uid, [109]⟩)
        | _ => false) = true := by
  decide +kernel

/-! ## C54 -/

/-- Exactly when bytes for the peer are handed out: the bytes from the S2A are not empty, they
parse to a response with status OK, and its result, if there is one, is complete.  Then they are
its `out_frames`.  In all other cases `GetBytesForPeer` reports an error and drops them. -/
theorem C54_forwarded_iff (dec : Bytes → Option SessionResp) (s : State) (bytes : Option Bytes) :
    (∀ b, (getBytesForPeer dec s bytes).2.buffer = some b ↔
      ∃ resp, bytes.getD [] ≠ [] ∧ dec (bytes.getD []) = some resp ∧ Spec.Good resp ∧
        (∀ r, resp.result = some r → IsComplete r) ∧ b = resp.outFrames) ∧
    ((getBytesForPeer dec s bytes).2.buffer = none →
      (getBytesForPeer dec s bytes).2.code ≠ .ok) := by
  constructor
  · intro b
    constructor
    · intro hb
      have hne : bytes.getD [] ≠ [] := by
        intro he
        unfold getBytesForPeer at hb
        rw [if_pos (by simp [he])] at hb
        cases hb
      obtain ⟨resp, h1, h2, h3, _, h5⟩ := C54_nothing_else_forwarded dec s bytes b hb
      exact ⟨resp, hne, h1, h2, h5, h3⟩
    · rintro ⟨resp, h0, h1, h2, h3, rfl⟩
      cases bytes with
      | none => exact absurd rfl h0
      | some bs =>
        rw [C54_forwarded_verbatim_partial dec s bs h0 resp h1 h2 h3]
  · intro hn
    by_cases hb : ∀ resp, response dec bytes = some resp → ¬ Spec.Good resp
    · obtain ⟨c, hc, he⟩ := getBytesForPeer_bad (s := s) hb
      rw [he]
      exact hc
    · simp only [Classical.not_forall, Classical.not_not] at hb
      obtain ⟨resp, h1, h2⟩ := hb
      rw [getBytesForPeer_good h1 h2] at hn ⊢
      cases hr : resp.result with
      | none => rw [hr] at hn; cases hn
      | some r =>
        rw [hr] at hn
        simp only at hn ⊢
        generalize hq : ({ select s resp with finished := true } : State) = q at hn ⊢
        have hcode : ∀ c, (handleResult q r).2 = some c → c ≠ .ok := handleResult_code q r
        generalize handleResult q r = x at hn hcode ⊢
        obtain ⟨x1, x2⟩ := x
        cases x2 with
        | none => cases hn
        | some c => exact hcode c rfl

/-! ## C53 -/

/-- In every history: two frame protectors that are created with no result received in between
use the same keys and the same nonces, in both directions, for as long as they have AEAD calls
and key updates in the same order; so whatever the one seals, the other seals with the same key
and nonce. -/
theorem C53_all_share (L : Lib) (A : Frame.Allocator) (o : Options) (s s1 s2 s3 : State)
    (evs evs' : List Event) (ops : List Op) (h : Reach L o s evs) (fIn fOut gIn gOut : KeyFault)
    (p p' q q' : Frame.State) (hp : createFrameProtector L fIn fOut s = .ok (s1, .ok p))
    (hr : run L s1 ops = .ok (s2, evs')) (hn : results evs' = [])
    (hq : createFrameProtector L gIn gOut s2 = .ok (s3, .ok q))
    (ops1 ops2 : List Frame.Op) (fevs1 fevs2 : List Frame.Event)
    (h1 : Frame.run L A p ops1 = .ok (p', fevs1)) (h2 : Frame.run L A q ops2 = .ok (q', fevs2))
    (k : Nat) :
    (((Record.outTrace p'.evs).map Spec.KeyUse.isRekey).take k =
      ((Record.outTrace q'.evs).map Spec.KeyUse.isRekey).take k →
      (Record.outTrace p'.evs).take k = (Record.outTrace q'.evs).take k) ∧
    (((Record.inTrace p'.evs).map Spec.KeyUse.isRekey).take k =
      ((Record.inTrace q'.evs).map Spec.KeyUse.isRekey).take k →
      (Record.inTrace p'.evs).take k = (Record.inTrace q'.evs).take k) := by
  have key : ∀ {f g : KeyFault} {s s' : State} {p : Frame.State},
      createFrameProtector L f g s = .ok (s', .ok p) → ∃ r, s.result = some r ∧
        s' = { s with hasFactory := false } ∧ Frame.Created L (frameOptions s r) p := by
    intro f g s s' p hp
    unfold createFrameProtector at hp
    split at hp
    · cases hp
    · split at hp
      · cases hp
      · rename_i r hr
        rw [HalfConn.exec_bind_eq_ok] at hp
        obtain ⟨x, h1, h2⟩ := hp
        cases h2
        exact ⟨r, hr, rfl, _, _, h1⟩
  obtain ⟨r1, e1, e2, c1⟩ := key hp
  obtain ⟨r2, e3, _, c2⟩ := key hq
  have hk : s2.result = s1.result := (run_keeps hr (by
    unfold results at hn
    rw [List.filterMap_eq_nil_iff] at hn
    exact hn)).1
  have : r1 = r2 := by
    rw [e2] at hk
    simp only at hk
    rw [e3, e1] at hk
    exact (Option.some.inj hk).symm
  subst this
  have k1 : Frame.Reach L A (frameOptions s r1) p' := ⟨p, ops1, fevs1, c1, h1⟩
  have k2 : Frame.Reach L A (frameOptions s2 r1) q' := ⟨q, ops2, fevs2, c2, h2⟩
  obtain ⟨su, hsu⟩ := k1.suite
  have f1 := Record.C16_C17_connection_follows_rfc8446 L _ su _ _ hsu k1.conn.1
  have f2 := Record.C16_C17_connection_follows_rfc8446 L _ su _ _
    (show Spec.suite (frameOptions s2 r1).crypter.ciphersuite = some su from hsu) k2.conn.1
  exact ⟨follows_same f1.1 f2.1 k, follows_same f1.2 f2.2 k⟩

/-- Witness: two frame protectors of the same handshake, one record each. -/
example : ∃ (s s1 s2 s3 : State) (evs : List Event) (p q p' q' : Frame.State)
      (fevs1 fevs2 : List Frame.Event),
    Reach Lib.toy client s evs ∧
    createFrameProtector Lib.toy .none .none s = .ok (s1, .ok p) ∧
    run Lib.toy s1 [.isFinished] = .ok (s2, [.isFinished true]) ∧
    createFrameProtector Lib.toy .none .none s2 = .ok (s3, .ok q) ∧
    Frame.run Lib.toy Frame.Demo.alloc p [.protect (fun _ => .none) [.buf [1]]] =
      .ok (p', fevs1) ∧
    Frame.run Lib.toy Frame.Demo.alloc q [.protect (fun _ => .none) [.buf [2]]] =
      .ok (q', fevs2) ∧
    ((Record.outTrace p'.evs).map Spec.KeyUse.isRekey) = [false] ∧
    ((Record.outTrace q'.evs).map Spec.KeyUse.isRekey) = [false] :=
  ⟨_, _, _, _, _, _, _, _, _, _, _, reach (ops := full) (by decide +kernel), rfl, rfl, rfl, rfl,
    rfl, by decide +kernel, by decide +kernel⟩

/-! ## C42, C45: the end of the handshake changes nothing -/

/-- In every history in which a request was emitted, whether or not the handshake has finished,
`GetBytesForS2A` emits a request for every non-empty byte string (unless protobuf fails). -/
theorem C42_emitted_in_every_state (L : Lib) (o : Options) (s : State) (evs : List Event)
    (h : Reach L o s evs) (hq : requests evs ≠ []) (e : Env) (he : e.serializeFails = false)
    (bytes : Bytes) (hb : bytes ≠ []) :
    ∃ req, (getBytesForS2A e s (some bytes)).2.1 = ⟨.ok, 0, some req⟩ ∧
      (req.length < 2 ^ 64 → Spec.Continues bytes req) := by
  have hf : s.first = false := by
    cases hf : s.first with
    | false => rfl
    | true => exact absurd (h.inv.first.1 hf) hq
  have hp : plan e s (some bytes) = some (.next ⟨bytes⟩) := by
    simp [plan, hf, hb]
  have hst : (getBytesForS2A e s (some bytes)).2.1 =
      ⟨.ok, 0, some (reqOf e s (.next ⟨bytes⟩)).serialize⟩ := by
    rw [getBytesForS2A_eq, hp]
    simp [he]
  refine ⟨_, hst, fun hl => ?_⟩
  rcases forS2A_cases h e (some bytes) with ⟨c, hc, hst'⟩ | ⟨b', hst', hb'⟩
  · rw [hst'] at hst
    simp only [Status.fail, Status.mk.injEq] at hst
    exact absurd hst.1 hc
  · rw [hst'] at hst
    simp only [Status.mk.injEq, Option.some.injEq, true_and] at hst
    subst hst
    have := hb' hl
    rwa [if_neg hq] at this

/-- What `GetBytesForPeer` reports and hands out does not depend on the state at all. -/
theorem C45_response_in_every_state (dec : Bytes → Option SessionResp) (s t : State)
    (bytes : Option Bytes) : (getBytesForPeer dec s bytes).2 = (getBytesForPeer dec t bytes).2 := by
  have key : ∀ (s t : State) (r : SessionResult), (handleResult s r).2 = (handleResult t r).2 := by
    intro s t r
    unfold handleResult
    cases r.state with
    | none => rfl
    | some st =>
      simp only []
      cases tlsVersionFromProto st.tlsVersion with
      | error c => rfl
      | ok v =>
        simp only []
        cases ciphersuiteFromProto st.ciphersuite with
        | error c => rfl
        | ok cs =>
          simp only []
          cases r.localIdentity <;> rfl
  have fin : ∀ (s t : State) (r : SessionResult) (resp : SessionResp),
      (match handleResult { s with finished := true } r with
        | (s, some c) => (s, Status.fail c)
        | (s, none) => (s, ⟨.ok, resp.bytesConsumed, some resp.outFrames⟩)).2 =
      (match handleResult { t with finished := true } r with
        | (s, some c) => (s, Status.fail c)
        | (s, none) => (s, ⟨.ok, resp.bytesConsumed, some resp.outFrames⟩)).2 := by
    intro s t r resp
    have hk := key { s with finished := true } { t with finished := true } r
    generalize handleResult { s with finished := true } r = x at hk
    generalize handleResult { t with finished := true } r = y at hk
    obtain ⟨x1, x2⟩ := x
    obtain ⟨y1, y2⟩ := y
    cases hk
    cases x2 <;> rfl
  unfold getBytesForPeer
  split
  · rfl
  cases dec (bytes.getD []) with
  | none => rfl
  | some resp =>
    simp only []
    cases resp.status with
    | none => rfl
    | some status =>
      simp only []
      split
      · rfl
      · cases resp.result with
        | none => rfl
        | some r =>
          simp only []
          cases resp.localIdentity with
          | none => exact fin s t r resp
          | some i => exact fin _ _ r resp

/-- Witness: a request and a response after the handshake has finished. -/
example : ∃ (s : State) (evs : List Event), Reach Lib.toy client s evs ∧ requests evs ≠ [] ∧
    isHandshakeFinished s = true ∧
    (getBytesForPeer (fun _ => some frames) s (some [0])).2 = ⟨.ok, 4, some [1, 2, 3]⟩ :=
  ⟨_, _, reach (ops := [.forS2A env none, says done]) (by decide +kernel), by decide +kernel,
    by decide +kernel, by decide +kernel⟩

end S2A.Proxy
