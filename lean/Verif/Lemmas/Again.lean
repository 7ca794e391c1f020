import Verif.Spec.Again
import Verif.Lemmas.ProxyResult
/-
A response only changes what the proxy has been told, and the second time not even that.
-/
namespace S2A.Proxy
open Proto Spec HalfConn Util

/-- The members that responses and `GetS2AContext` write. -/
structure Told where
  selected : Option Identity
  finished : Bool
  context : Option Context
  result : Option HsResult

def State.told (s : State) : Told := ⟨s.selected, s.finished, s.context, s.result⟩

def State.tell (s : State) (t : Told) : State :=
  { s with selected := t.selected, finished := t.finished, context := t.context,
           result := t.result }

theorem State.tell_told (s : State) : s.tell s.told = s := rfl

theorem State.told_tell (s : State) (t : Told) : (s.tell t).told = t := rfl

theorem State.tell_tell (s : State) (t u : Told) : (s.tell t).tell u = s.tell u := rfl

/-- What a result leaves, and whether it is an error, whatever was there before. -/
theorem handleResult_told (r : SessionResult) :
    ∃ (f : Told → Told) (c : Option StatusCode),
      (∀ s, handleResult s r = (s.tell (f s.told), c)) ∧ (∀ t, f (f t) = f t) ∧
      (∀ t, (f t).selected = t.selected ∧ (f t).finished = t.finished) ∧
      ∀ t x b, f { t with selected := x, finished := b } =
        { f t with selected := x, finished := b } := by
  unfold handleResult
  cases hs : r.state with
  | none =>
    exact ⟨id, _, fun s => rfl, fun _ => rfl, fun _ => ⟨rfl, rfl⟩, fun _ _ _ => rfl⟩
  | some st =>
    simp only
    cases hv : tlsVersionFromProto st.tlsVersion with
    | error c =>
      exact ⟨fun t => { t with result := some HsResult.fresh }, some c, fun s => rfl,
        fun _ => rfl, fun _ => ⟨rfl, rfl⟩, fun _ _ _ => rfl⟩
    | ok v =>
      simp only
      cases hc : ciphersuiteFromProto st.ciphersuite with
      | error c =>
        exact ⟨fun t => { t with result := some { HsResult.fresh with tlsVersion := v } }, some c,
          fun s => rfl, fun _ => rfl, fun _ => ⟨rfl, rfl⟩, fun _ _ _ => rfl⟩
      | ok cs =>
        simp only
        cases hl : r.localIdentity with
        | none =>
          exact ⟨fun t => { t with result := some _ }, _, fun s => rfl, fun _ => rfl,
            fun _ => ⟨rfl, rfl⟩, fun _ _ _ => rfl⟩
        | some li =>
          exact ⟨fun t => { t with result := some _, context := some _ }, _, fun s => rfl,
            fun _ => rfl, fun _ => ⟨rfl, rfl⟩, fun _ _ _ => rfl⟩

theorem getBytesForPeer_told (dec : Bytes → Option SessionResp) (bytes : Option Bytes) :
    ∃ (f : Told → Told) (st : Status),
      (∀ s, getBytesForPeer dec s bytes = (s.tell (f s.told), st)) ∧ ∀ t, f (f t) = f t := by
  by_cases hbad : ∀ resp, response dec bytes = some resp → ¬ Spec.Good resp
  · refine ⟨id, (getBytesForPeer dec (State.mk true [] [] .default false false [] none true
      false none none) bytes).2, fun s => ?_, fun _ => rfl⟩
    unfold getBytesForPeer
    unfold response at hbad
    split
    · rfl
    rename_i hb
    rw [if_neg hb] at hbad
    cases hd : dec (bytes.getD []) with
    | none => rfl
    | some resp =>
      have hg := hbad resp hd
      unfold Spec.Good at hg
      cases hs : resp.status with
      | none => simp only [hs]; rfl
      | some st =>
        simp only [hs]
        rw [if_pos (fun hz => hg ⟨st, hs, hz⟩), if_pos (fun hz => hg ⟨st, hs, hz⟩)]
        rfl
  · simp only [Classical.not_forall, Classical.not_not] at hbad
    obtain ⟨resp, hr, hg⟩ := hbad
    have he := fun s => getBytesForPeer_good (s := s) hr hg
    obtain ⟨sel, hsel, hsel2⟩ : ∃ sel : Told → Told, (∀ s, select s resp = s.tell (sel s.told)) ∧
        ((∀ t, sel t = t) ∨ ∃ i, ∀ t, sel t = { t with selected := some i }) := by
      unfold select
      cases resp.localIdentity with
      | none => exact ⟨id, fun _ => rfl, .inl fun _ => rfl⟩
      | some i => exact ⟨fun t => { t with selected := _ }, fun _ => rfl, .inr ⟨_, fun _ => rfl⟩⟩
    cases hres : resp.result with
    | none =>
      rw [hres] at he
      refine ⟨sel, _, fun s => by rw [he, hsel], fun t => ?_⟩
      rcases hsel2 with h | ⟨i, h⟩
      · rw [h, h]
      · rw [h, h]
    | some r =>
      rw [hres] at he
      obtain ⟨f, c, f1, f2, f3, f4⟩ := handleResult_told r
      refine ⟨fun t => f { sel t with finished := true },
        (match c with
          | some c => .fail c
          | none => ⟨.ok, resp.bytesConsumed, some resp.outFrames⟩), fun s => ?_, fun t => ?_⟩
      · rw [he]
        simp only [f1, hsel]
        cases c <;> rfl
      · have g : ∀ t, f { sel t with finished := true } =
            { f t with selected := (sel t).selected, finished := true } := by
          intro t
          rcases hsel2 with h | ⟨i, h⟩
          · rw [h]
            have := f4 t t.selected true
            simpa using this
          · rw [h]
            exact f4 t (some i) true
        show f { sel (f { sel t with finished := true }) with finished := true } =
          f { sel t with finished := true }
        rw [g, g, f4, f2]
        rcases hsel2 with h | ⟨i, h⟩
        · rw [h, h]
        · rw [h, h]

theorem step_told {L : Lib} {s s' : State} {op : Op} {ev : Event}
    (h : step L s op = .ok (s', ev))
    (h1 : ∀ resp st, ev = .forPeer (some resp) st → ¬ Good resp)
    (h2 : ∀ c, ev ≠ .getContext c) : s'.told = s.told := by
  cases op with
  | forS2A e bytes =>
    have hs : s' = (getBytesForS2A e s bytes).1 := by
      simp only [step, Except.ok.injEq, Prod.mk.injEq] at h
      exact h.1.symm
    rw [hs, getBytesForS2A_eq]
    split
    · rfl
    · rw [populate_state]; rfl
  | forPeer dec bytes =>
    simp only [step, Except.ok.injEq, Prod.mk.injEq] at h
    obtain ⟨hs, he⟩ := h
    obtain ⟨c, _, hc⟩ := getBytesForPeer_bad (dec := dec) (s := s) (bytes := bytes)
      (fun resp hr => h1 resp _ (by rw [← he, hr]))
    rw [← hs, hc]
  | isFinished => cases h; rfl
  | createFrameProtector fIn fOut =>
    simp only [step, exec_bind_eq_ok] at h
    obtain ⟨⟨s1, p⟩, g1, g2⟩ := h
    cases g2
    rcases createFrameProtector_state g1 with h | h <;> rw [h]
    rfl
  | getContext =>
    cases h
    exact absurd rfl (h2 _)

theorem run_told {L : Lib} {s s' : State} {ops : List Op} {evs : List Event}
    (h : run L s ops = .ok (s', evs)) (hn : NothingNew evs) : s'.told = s.told := by
  induction ops generalizing s evs with
  | nil => cases h; rfl
  | cons op ops ih =>
    simp only [run, exec_bind_eq_ok] at h
    obtain ⟨⟨s1, e⟩, g1, ⟨s2, es⟩, g2, g3⟩ := h
    cases g3
    rw [ih g2 (fun ev hev => hn ev (List.mem_cons_of_mem _ hev)),
      step_told g1 (hn e List.mem_cons_self).1 (hn e List.mem_cons_self).2]

end S2A.Proxy
