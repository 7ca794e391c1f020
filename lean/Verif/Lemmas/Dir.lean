import Verif.Lemmas.HalfConnHist
import Verif.Spec.Record
namespace S2A.HalfConn

/-- A half connection that has not failed and is at the position `d` of its direction. -/
structure At (L : Lib) (hc : HalfConn) (d : Spec.Dir) : Prop where
  good : Good d.suite hc
  secret : hc.secret = d.secret
  key : hc.aead.key = d.key L
  iv : hc.nonce = Spec.trafficIv L d.suite.hash d.secret
  live : hc.alwaysFail = false
  le : d.seq ≤ 2 ^ 64
  seq : hc.seq.toNat = d.seq % 2 ^ 64
  over : hc.overflowed = decide (d.seq = 2 ^ 64)

theorem At.blocked {L hc d} (h : At L hc d) : hc.blocked = decide (d.seq = 2 ^ 64) := by
  simp [HalfConn.blocked, h.live, h.over]

theorem At.not_blocked {L hc d} (h : At L hc d) (hs : d.seq < 2 ^ 64) : hc.blocked = false := by
  rw [h.blocked]; simp; omega

theorem At.lt {L hc d} (h : At L hc d) (hb : hc.blocked = false) : d.seq < 2 ^ 64 := by
  rw [h.blocked] at hb
  simp at hb
  have := h.le
  omega

theorem At.nonce {L hc d} (h : At L hc d) (hs : d.seq < 2 ^ 64) :
    Spec.recordNonce hc.nonce hc.seq.toNat = d.nonce L := by
  rw [h.seq, h.iv, Nat.mod_eq_of_lt hs]; rfl

theorem At.bump {L hc d} (h : At L hc d) (hs : d.seq < 2 ^ 64) : At L hc.bump d.next := by
  have e : hc.seq.toNat = d.seq := by rw [h.seq, Nat.mod_eq_of_lt hs]
  refine ⟨bump_good h.good, h.secret, h.key, h.iv, h.live, ?_, ?_, ?_⟩
  · show d.seq + 1 ≤ _; omega
  · show (hc.seq + 1).toNat = (d.seq + 1) % 2 ^ 64
    rw [UInt64.toNat_add, e]; rfl
  · show (hc.overflowed || decide (hc.seq + 1 = 0)) = decide (d.seq + 1 = 2 ^ 64)
    have ho : hc.overflowed = false := by rw [h.over]; simp; omega
    rw [ho, Bool.false_or]
    refine decide_eq_decide.2 ?_
    rcases seq_succ_toNat hc.seq with ⟨q1, q2⟩ | ⟨q1, q2⟩
    · exact ⟨fun _ => by omega, fun _ => q1⟩
    · have := (hc.seq + 1).toNat_lt
      exact ⟨fun h => absurd h q1, fun h => by omega⟩

theorem fresh_at (L : Lib) (s : Spec.Suite) (cs : Ciphersuite) (q : UInt64) (secret : Bytes)
    (h : Spec.suite cs = some s) (hl : secret.length = s.hash.digestSize) :
    At L (fresh L s cs q secret) ⟨s, secret, q.toNat⟩ := by
  have := q.toNat_lt
  refine ⟨fresh_good L s cs q secret h hl, rfl, rfl, rfl, rfl, ?_, ?_, ?_⟩
  · show q.toNat ≤ _; omega
  · show q.toNat = q.toNat % _; omega
  · show false = decide (q.toNat = _); symm; simp; omega

theorem At.updated {L hc d} (h : At L hc d) : At L (updated L d.suite hc) (d.update L) := by
  refine ⟨updated_good L _ _ h.good, ?_, ?_, ?_, h.live, ?_, ?_, ?_⟩
  · simp [HalfConn.updated, Spec.Dir.update, h.secret]
  · simp [HalfConn.updated, Spec.Dir.update, Spec.Dir.key, h.secret]
  · simp [HalfConn.updated, Spec.Dir.update, h.secret]
  · simp [Spec.Dir.update]
  · simp [HalfConn.updated, Spec.Dir.update]
  · simp [HalfConn.updated, Spec.Dir.update]

/-- Two half connections at the same position (in the same suite) are equal. -/
theorem At.unique {L a b d} (ha : At L a d) (hb : At L b d) (hcs : a.cs = b.cs) : a = b := by
  obtain ⟨cs, ks, q, ov, af, n, s, ⟨alg, key⟩⟩ := a
  obtain ⟨cs', ks', q', ov', af', n', s', ⟨alg', key'⟩⟩ := b
  simp only [HalfConn.mk.injEq, Aead.Crypter.mk.injEq]
  refine ⟨hcs, ha.good.keySize.trans hb.good.keySize.symm, ?_, ha.over.trans hb.over.symm,
    ha.live.trans hb.live.symm, ha.iv.trans hb.iv.symm, ha.secret.trans hb.secret.symm,
    ha.good.alg.trans hb.good.alg.symm, ha.key.trans hb.key.symm⟩
  exact UInt64.toNat_inj.1 (ha.seq.trans hb.seq.symm)

theorem after_append (L : Lib) (d : Spec.Dir) (a b : List Spec.KeyUse) :
    d.after L (a ++ b) = (d.after L a).after L b := by
  induction a generalizing d with
  | nil => rfl
  | cons u us ih => cases u <;> exact ih _

theorem after_suite (L : Lib) (d : Spec.Dir) (us : List Spec.KeyUse) :
    (d.after L us).suite = d.suite := by
  induction us generalizing d with
  | nil => rfl
  | cons u us ih => cases u <;> exact ih _

/-- A history moves a half connection along its direction, until it fails. -/
theorem At.run {L : Lib} {ops hc hc' evs d} (h : At L hc d)
    (hr : run L hc ops = .ok (hc', evs)) :
    hc'.alwaysFail = true ∨ At L hc' (d.after L (trace evs)) := by
  induction ops generalizing hc evs d with
  | nil => cases hr; exact Or.inr h
  | cons op ops ih =>
    obtain ⟨hc1, ev, es, h1, h2, h3⟩ := run_cons hr
    subst h3
    rcases step_inv h.good h1 with ⟨_, a, b, c⟩ | ⟨_, a, b, aad, data, st, c⟩ | ⟨_, a, b⟩ |
      ⟨_, a, b, st, c, e⟩
    · rw [b] at h2
      subst c
      have := ih h h2
      exact this
    · subst b c
      have := ih (h.bump (h.lt a)) h2
      exact this
    · subst a b
      have := ih h.updated h2
      exact this
    · exact Or.inl (alwaysFail_run b a h2).1

end S2A.HalfConn
