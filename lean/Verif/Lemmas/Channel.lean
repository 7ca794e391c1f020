import Verif.Lemmas.ProxyResult
import Verif.Lemmas.FrameReach
import Verif.Props.Status
import Verif.Spec.Channel
/-
Where the channel factory of a proxy is.
-/
namespace S2A.Proxy
open HalfConn (exec_bind_eq_ok)
open Spec (attempted)

/-- Creating a frame protector never fails with FAILED_PRECONDITION. -/
theorem frame_create_code {L : Lib} {fIn fOut : KeyFault} {o : Frame.Options} {c : StatusCode}
    (h : Frame.create L fIn fOut o = .ok (.error c)) : c ≠ .failedPrecondition := by
  rcases (Frame.C97_protector_creation L fIn fOut o).1 with ⟨e, _⟩ | ⟨e, _⟩ | ⟨⟨x, e⟩, _⟩ <;>
    (rw [e] at h; cases h)
  · decide
  · decide

/-- After a history the factory is there if one was given and no call took it away. -/
theorem factory_exact {L : Lib} {o : Options} {s : State} {evs : List Event}
    (h : Reach L o s evs) :
    s.hasFactory = true ↔ o.hasFactory = true ∧ ∀ ev ∈ evs, attempted ev = false := by
  refine h.induction (P := fun s evs => s.hasFactory = true ↔ o.hasFactory = true ∧
    ∀ ev ∈ evs, attempted ev = false) ?_ ?_
  · intro s hs
    unfold create at hs
    split at hs
    · cases hs
    · cases hs
    · cases hs; simp
  · intro s evs op s' ev ih hs
    have same : s'.hasFactory = s.hasFactory → attempted ev = false →
        (s'.hasFactory = true ↔ o.hasFactory = true ∧
          ∀ x ∈ evs ++ [ev], attempted x = false) := by
      intro e1 e2
      rw [e1, ih]
      constructor
      · rintro ⟨a, b⟩
        refine ⟨a, fun x hx => ?_⟩
        rcases List.mem_append.1 hx with hx | hx
        · exact b x hx
        · rw [List.mem_singleton] at hx; subst hx; exact e2
      · rintro ⟨a, b⟩
        exact ⟨a, fun x hx => b x (by simp [hx])⟩
    cases op with
    | forS2A e bytes =>
      simp only [Proxy.step, Except.ok.injEq, Prod.mk.injEq] at hs
      obtain ⟨rfl, rfl⟩ := hs
      refine same ?_ rfl
      rw [getBytesForS2A_eq]
      cases plan e s bytes with
      | none => rfl
      | some k => simp only []; rw [populate_state]
    | forPeer dec bytes =>
      simp only [Proxy.step, Except.ok.injEq, Prod.mk.injEq] at hs
      obtain ⟨rfl, rfl⟩ := hs
      refine same ?_ rfl
      by_cases hb : ∀ resp, response dec bytes = some resp → ¬ Spec.Good resp
      · obtain ⟨c, _, he⟩ := getBytesForPeer_bad (s := s) hb
        rw [he]
      · simp only [Classical.not_forall, Classical.not_not] at hb
        obtain ⟨resp, h1, h2⟩ := hb
        obtain ⟨ctx, res, he⟩ := getBytesForPeer_frame dec s bytes resp h1 h2
        rw [he, select_frame]
    | isFinished => cases hs; exact same rfl rfl
    | createFrameProtector fIn fOut =>
      simp only [Proxy.step, exec_bind_eq_ok] at hs
      obtain ⟨⟨s1, p⟩, h1, h2⟩ := hs
      cases h2
      unfold createFrameProtector at h1
      split at h1
      · cases h1; exact same rfl rfl
      · split at h1
        · cases h1
        · simp only [exec_bind_eq_ok] at h1
          obtain ⟨p', h1, h2⟩ := h1
          cases h2
          have ha : attempted (.createFrameProtector p) = true := by
            cases p with
            | ok p => rfl
            | error c =>
              have := frame_create_code h1
              cases c <;> first | rfl | exact absurd rfl this
          constructor
          · intro h; cases h
          · rintro ⟨_, b⟩
            rw [b _ (by simp)] at ha
            cases ha
    | getContext =>
      simp only [Proxy.step, getS2AContext] at hs
      split at hs <;> (cases hs; exact same rfl rfl)

/-- What a frame protector is made from. -/
theorem createFrameProtector_from {L : Lib} {fIn fOut : KeyFault} {s s' : State} {p : Frame.State}
    (h : createFrameProtector L fIn fOut s = .ok (s', .ok p)) : ∃ r, s.result = some r ∧
      Frame.Created L (frameOptions s r) p := by
  unfold createFrameProtector at h
  split at h
  · cases h
  · split at h
    · cases h
    · rename_i r hr
      rw [exec_bind_eq_ok] at h
      obtain ⟨x, h1, h2⟩ := h
      cases h2
      exact ⟨r, hr, _, _, h1⟩

end S2A.Proxy
