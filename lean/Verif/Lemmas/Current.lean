import Verif.Lemmas.Reach
import Verif.Spec.Current
/-
Lemmas for C105.
-/
namespace S2A.Record

theorem holdsOnly_of_at {L : Lib} {cs : Ciphersuite} {d : Spec.Dir} {hc : HalfConn}
    (hcs : hc.cs = cs) (h : HalfConn.At L hc d) : HoldsOnly L cs d hc := by
  subst hcs
  obtain ⟨r, h1, _, _, h2⟩ := HalfConn.create_spec L .none hc.cs (UInt64.ofNat d.seq) d.secret
  refine ⟨HalfConn.fresh L d.suite hc.cs (UInt64.ofNat d.seq) d.secret, ?_, ?_⟩
  · rw [h1, h2 d.suite rfl h.good.suite (by rw [← h.secret]; exact h.good.secret)]
  · have hq : hc.seq = UInt64.ofNat d.seq := by
      apply UInt64.toNat_inj.1
      rw [h.seq, UInt64.toNat_ofNat']
    obtain ⟨cs, ks, seq, ov, af, nonce, secret, ⟨alg, key⟩⟩ := hc
    have g := h.good
    have e1 := h.secret
    have e2 := h.key
    have e3 := h.iv
    have e4 := h.live
    have e5 := h.over
    have g1 := g.keySize
    have g2 := g.alg
    simp only at hq e1 e2 e3 e4 e5 g1 g2
    subst hq e1 e2 e3 e4 e5 g1 g2
    rfl

theorem suite_inj {cs cs' : Ciphersuite} {s : Spec.Suite} (h : Spec.suite cs = some s)
    (h' : Spec.suite cs' = some s) : cs = cs' := by
  cases cs <;> simp only [Spec.suite, reduceCtorEq, Option.some.injEq] at h <;> subst h <;>
    cases cs' <;> simp [Spec.suite] at h' <;> rfl

theorem updateKey_secret {L : Lib} {f : KeyFault} {hc hc' : HalfConn} {st : StatusCode}
    (h : HalfConn.updateKey L f hc = .ok (hc', st)) :
    ∃ st0 sec, advanceSecret L f.advance hc.cs hc.secret = .ok (st0, sec) ∧
      hc'.secret = sec := by
  unfold HalfConn.updateKey at h
  rw [HalfConn.exec_bind_eq_ok] at h
  obtain ⟨⟨st0, sec⟩, h0, h⟩ := h
  refine ⟨st0, sec, h0, ?_⟩
  simp only at h
  split at h
  · cases h; rfl
  rw [HalfConn.exec_bind_eq_ok] at h
  obtain ⟨⟨st1, key⟩, h1, h⟩ := h
  simp only at h
  split at h
  · cases h; rfl
  rw [HalfConn.exec_bind_eq_ok] at h
  obtain ⟨⟨st2, nonce⟩, h2, h⟩ := h
  simp only at h
  split at h
  · cases h; rfl
  split at h <;> · cases h; rfl

theorem decrypt_keeps {L : Lib} {f : EvpFault} {hc hc' : HalfConn} {aad ct : List Iovec}
    {out : Iovec} {call} {r} (h : hc.decrypt L f aad ct out = .ok (hc', call, r)) :
    hc'.aead = hc.aead ∧ hc'.secret = hc.secret ∧ hc'.cs = hc.cs ∧
      hc'.alwaysFail = hc.alwaysFail ∧ hc'.keySize = hc.keySize ∧ hc'.nonce = hc.nonce := by
  unfold HalfConn.decrypt at h
  split at h
  · cases h; simp
  rw [HalfConn.exec_bind_eq_ok] at h
  obtain ⟨⟨n, hc1⟩, h1, h⟩ := h
  simp only at h
  rw [HalfConn.exec_bind_eq_ok] at h
  obtain ⟨r1, h2, h⟩ := h
  cases h
  unfold HalfConn.nonceMask at h1
  rw [HalfConn.exec_bind_eq_ok] at h1
  obtain ⟨n1, h3, h1⟩ := h1
  cases h1
  simp

theorem decrypt_good {L : Lib} {f : EvpFault} {hc hc' : HalfConn} {aad ct : List Iovec}
    {out : Iovec} {call} {r} {s : Spec.Suite} (hg : HalfConn.Good s hc)
    (h : hc.decrypt L f aad ct out = .ok (hc', call, r)) : HalfConn.Good s hc' := by
  obtain ⟨e1, e2, e3, _, e5, e6⟩ := decrypt_keeps h
  exact ⟨by rw [e3]; exact hg.suite, by rw [e5]; exact hg.keySize, by rw [e6]; exact hg.nonce,
    by rw [e2]; exact hg.secret, by rw [e1]; exact hg.alg⟩

/-- What an update leaves, from any state a direction can be in. -/
theorem updateKey_leaves {L : Lib} {f : KeyFault} {cs : Ciphersuite} {s : Spec.Suite}
    {hc hc' : HalfConn} {st : StatusCode} (hs : Spec.suite cs = some s) (hg : HalfConn.Good s hc)
    (hu : hc.updateKey L f = .ok (hc', st)) :
    (st = .ok → ∃ new,
      HalfConn.create L .none cs 0 (Spec.nextSecret L s.hash hc.secret) = .ok (.ok new) ∧
        hc' = { new with alwaysFail := hc.alwaysFail }) ∧
    (st ≠ .ok → hc'.alwaysFail = true ∧ hc'.aead = hc.aead ∧
      (hc'.secret = hc.secret ∨ hc'.secret = Spec.nextSecret L s.hash hc.secret) ∧
      (f.advance = .none → hc'.secret = Spec.nextSecret L s.hash hc.secret)) := by
  obtain ⟨hc1, st1, k1, k2, k3, k4, k5⟩ := HalfConn.updateKey_spec L f s hc hg
  rw [hu] at k1
  cases k1
  refine ⟨fun hok => ?_, fun hst => ?_⟩
  · have hb := k3 hok
    have hcs := suite_inj hg.suite hs
    have hl := (HalfConn.updated_good L s hc hg).secret
    obtain ⟨r, h1, _, _, h2⟩ := HalfConn.create_spec L .none cs 0
      (Spec.nextSecret L s.hash hc.secret)
    refine ⟨HalfConn.fresh L s cs 0 (Spec.nextSecret L s.hash hc.secret), ?_, ?_⟩
    · rw [h1, h2 s rfl hs hl]
    · rw [hb, ← hcs]
      simp only [HalfConn.updated, HalfConn.fresh, hg.keySize]
  · obtain ⟨q1, _, _, q4⟩ := k4 hst
    refine ⟨q1, q4, ?_⟩
    obtain ⟨st0, sec, e1, e2⟩ := updateKey_secret hu
    obtain ⟨st2, sec', a1, a2, a3, a4, a5⟩ :=
      HalfConn.advanceSecret_spec L f.advance hc.cs s hc.secret hg.suite hg.secret
    rw [e1] at a1
    cases a1
    simp only [e2]
    refine ⟨?_, fun h => a3 (a5 h)⟩
    by_cases h : st0 = .ok
    · exact .inr (a3 h)
    · exact .inl (a4 h)

end S2A.Record
