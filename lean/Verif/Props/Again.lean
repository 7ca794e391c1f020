import Verif.Lemmas.Again
import Verif.Props.ProxyExact
/-
A response of the S2A that is delivered twice counts once (C99).
-/
namespace S2A.Proxy
open Proto Spec Demo

/-- Delivered again at once, whatever it says, it gets the same answer and changes nothing. -/
theorem C99_again_at_once (L : Lib) (s s1 : State) (dec : Bytes → Option SessionResp)
    (bytes : Option Bytes) (ev : Event) (h : step L s (.forPeer dec bytes) = .ok (s1, ev)) :
    step L s1 (.forPeer dec bytes) = .ok (s1, ev) := by
  obtain ⟨f, st, h1, h2⟩ := getBytesForPeer_told dec bytes
  simp only [step, h1, Except.ok.injEq, Prod.mk.injEq] at h ⊢
  obtain ⟨rfl, rfl⟩ := h
  exact ⟨by rw [State.told_tell, h2, State.tell_tell], rfl⟩

/-- Also after any other calls, if no other response with status OK and no call of
`GetS2AContext` was among them.

Missing: after another result, the first one counts again
(`C99_old_response_counts_again`); after `GetS2AContext`, the context can be fetched again
(`C99_context_again`). -/
theorem C99_again_later_partial (L : Lib) (s s1 s2 : State) (dec : Bytes → Option SessionResp)
    (bytes : Option Bytes) (ev : Event) (ops : List Op) (evs : List Event)
    (h : step L s (.forPeer dec bytes) = .ok (s1, ev)) (hr : run L s1 ops = .ok (s2, evs))
    (hn : NothingNew evs) : step L s2 (.forPeer dec bytes) = .ok (s2, ev) := by
  obtain ⟨f, st, h1, h2⟩ := getBytesForPeer_told dec bytes
  have ht := run_told hr hn
  simp only [step, h1, Except.ok.injEq, Prod.mk.injEq] at h ⊢
  obtain ⟨rfl, rfl⟩ := h
  refine ⟨?_, rfl⟩
  rw [ht, State.told_tell, h2]
  exact (congrArg s2.tell ht.symm).trans s2.tell_told

/-- Witness: the result comes again after a request to the S2A, a failed response, and the
creation of a frame protector. -/
example : ∃ s1 ev s2 evs, step Lib.toy (made client) (says done) = .ok (s1, ev) ∧
    run Lib.toy s1 [.forS2A env none, says { frames with status := none }, .isFinished,
      .createFrameProtector .none .none] = .ok (s2, evs) ∧ NothingNew evs ∧ s2 ≠ s1 := by
  have hev : ∀ evs : List Event, evs.all (fun
      | .forPeer (some r) _ => r.status.isNone
      | .getContext _ => false
      | _ => true) = true → NothingNew evs := by
    intro evs h ev hev
    have := List.all_eq_true.1 h ev hev
    refine ⟨fun resp st he hg => ?_, fun c he => ?_⟩
    · subst he
      obtain ⟨x, hx, _⟩ := hg
      simp [hx] at this
    · subst he
      cases this
  exact ⟨_, _, _, _, rfl, rfl, hev _ (by decide +kernel), by decide +kernel⟩

/-- But an old result with a supported TLS version and ciphersuite that is delivered again
counts again, after any history, also one with newer results: the next frame protector is made
from the old keys. -/
theorem C99_old_response_counts_again (L : Lib) (o : Options) (opts : TlsOptions) (s s' : State)
    (evs : List Event) (h : Reach L o s evs) (ho : o.options = some opts)
    (dec : Bytes → Option SessionResp) (bytes : Option Bytes) (ev : Event)
    (hs : step L s (.forPeer dec bytes) = .ok (s', ev)) (r : SessionResult) (st : SessionState)
    (hr : carried ev = some r) (hst : r.state = some st) (v : TlsVersion) (cs : Ciphersuite)
    (hv : Spec.wireTlsVersion v = some st.tlsVersion)
    (hcs : Spec.wireCiphersuite cs = some st.ciphersuite) (fIn fOut : KeyFault) :
    ∃ factory, (createFrameProtector L fIn fOut s').map (·.2) =
      Frame.create L fIn fOut
        (Spec.usedOptions opts.s2aAddress factory st v cs r.localIdentity) := by
  have hl : lastStated (evs ++ [ev]) = some r := by
    rw [lastStated_snoc, hr]
    simp [hst]
  obtain ⟨_, _, h3⟩ := C46_every_history L o opts s' _ (h.step hs) ho fIn fOut
  obtain ⟨fac, _, he⟩ := (h3 r st hl hst).1 v cs hv hcs
  exact ⟨fac, he⟩

/-- A second result, with other secrets. -/
def Demo.newer : SessionResult :=
  { result with state := some { state with
      inKey := List.replicate 32 3, outKey := List.replicate 32 4 } }

/-- What counts after some responses. -/
def Demo.countsAfter (rs : List SessionResult) : Option (Bytes × Bytes) :=
  (hist client (rs.map doneWith)).1.result.map fun r => (r.inSecret, r.outSecret)

/-- Witness: of two results the second counts, until the first is delivered again. -/
example : countsAfter [result, newer] = some (List.replicate 32 3, List.replicate 32 4) ∧
    countsAfter [result, newer, result] = some (List.replicate 32 1, List.replicate 32 2) ∧
    runs client ([result, newer, result].map doneWith) = true := by
  decide +kernel

/-- And the context can be fetched again after it was delivered again. -/
theorem C99_context_again : ∃ ctx,
    (match run Lib.toy (made client) [doneWith result, .getContext, .getContext,
        doneWith result, .getContext] with
      | .ok (_, [_, .getContext c1, .getContext c2, _, .getContext c3]) => some (c1, c2, c3)
      | _ => none) = some (.ok (some ctx), .ok none, .ok (some ctx)) :=
  ⟨contextOf result state (.spiffeId [108]) .tls1_3 .aes128GcmSha256, rfl⟩

end S2A.Proxy
