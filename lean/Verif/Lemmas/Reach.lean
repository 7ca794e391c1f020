import Verif.Lemmas.RecordHist
namespace S2A.Record
open HalfConn (AeadCall Good At bump blocked)

/-- A connection as `Create` returns it. -/
def Created (L : Lib) (a : CreateArgs) (c : Conn) : Prop :=
  ∃ fIn fOut, create L fIn fOut a = .ok (.ok c)

/-- A connection created with the arguments `a` on which a history of calls (with any
failures of the library) produced the events `evs`. -/
def Reach (L : Lib) (a : CreateArgs) (c : Conn) (evs : List Event) : Prop :=
  ∃ c0 ops, Created L a c0 ∧ run L c0 ops = .ok (c, evs)

/-- Start of the inbound and outbound direction of a connection. -/
def inDir (a : CreateArgs) (s : Spec.Suite) : Spec.Dir := ⟨s, a.inSecret, a.inSequence.toNat⟩
def outDir (a : CreateArgs) (s : Spec.Suite) : Spec.Dir := ⟨s, a.outSecret, a.outSequence.toNat⟩

/-- Position of the inbound and outbound direction after some events. -/
def inPos (L : Lib) (a : CreateArgs) (s : Spec.Suite) (evs : List Event) : Spec.Dir :=
  (inDir a s).after L (inTrace evs)
def outPos (L : Lib) (a : CreateArgs) (s : Spec.Suite) (evs : List Event) : Spec.Dir :=
  (outDir a s).after L (outTrace evs)

theorem half_created {L : Lib} {f cs q sec hc s} (hs : Spec.suite cs = some s)
    (h : HalfConn.create L f cs q sec = .ok (.ok hc)) :
    At L hc ⟨s, sec, q.toNat⟩ ∧ hc = HalfConn.fresh L s cs q sec := by
  obtain ⟨r, h1, h2, _⟩ := HalfConn.create_spec L f cs q sec
  rw [h] at h1
  cases h1
  obtain ⟨s', a, b, c⟩ := h2 hc rfl
  rw [hs] at a
  cases a
  exact ⟨by rw [c]; exact HalfConn.fresh_at L s cs q sec hs b, c⟩

theorem created_suite {L : Lib} {a c} (h : Created L a c) :
    ∃ s, Spec.suite a.ciphersuite = some s := by
  obtain ⟨fi, fo, h⟩ := h
  obtain ⟨_, _, _, _, h1, _⟩ := create_inv h
  obtain ⟨r, g1, g2, _⟩ := HalfConn.create_spec L fi a.ciphersuite a.inSequence a.inSecret
  rw [h1] at g1
  cases g1
  obtain ⟨s, g, _⟩ := g2 _ rfl
  exact ⟨s, g⟩

theorem Created.at {L : Lib} {a c s} (h : Created L a c) (hs : Spec.suite a.ciphersuite = some s) :
    At L c.inC (inDir a s) ∧ At L c.outC (outDir a s) := by
  obtain ⟨fi, fo, h⟩ := h
  obtain ⟨_, _, _, _, h1, h2, _⟩ := create_inv h
  exact ⟨(half_created hs h1).1, (half_created hs h2).1⟩

theorem Reach.good {L : Lib} {a c evs s} (h : Reach L a c evs)
    (hs : Spec.suite a.ciphersuite = some s) : Good s c.inC ∧ Good s c.outC := by
  obtain ⟨c0, ops, h1, h2⟩ := h
  obtain ⟨a1, a2⟩ := h1.at hs
  obtain ⟨⟨o, e, b1, b2⟩, ⟨o', e', b3, b4⟩⟩ := run_project h2
  exact ⟨HalfConn.run_good a1.good b3, HalfConn.run_good a2.good b1⟩

theorem Reach.inAt {L : Lib} {a c evs s} (h : Reach L a c evs)
    (hs : Spec.suite a.ciphersuite = some s) :
    c.inC.alwaysFail = true ∨ At L c.inC (inPos L a s evs) := by
  obtain ⟨c0, ops, h1, h2⟩ := h
  obtain ⟨a1, a2⟩ := h1.at hs
  obtain ⟨_, ⟨o', e', b3, b4⟩⟩ := run_project h2
  have := a1.run b3
  rw [b4] at this
  exact this

theorem Reach.outAt {L : Lib} {a c evs s} (h : Reach L a c evs)
    (hs : Spec.suite a.ciphersuite = some s) :
    c.outC.alwaysFail = true ∨ At L c.outC (outPos L a s evs) := by
  obtain ⟨c0, ops, h1, h2⟩ := h
  obtain ⟨a1, a2⟩ := h1.at hs
  obtain ⟨⟨o', e', b3, b4⟩, _⟩ := run_project h2
  have := a2.run b3
  rw [b4] at this
  exact this

theorem blocked_of_alwaysFail {hc : HalfConn} (h : hc.alwaysFail = true) : blocked hc = true := by
  simp [blocked, h]

theorem run_append_ok {L : Lib} {ops1 ops2 c c1 c2 e1 e2}
    (h1 : run L c ops1 = .ok (c1, e1)) (h2 : run L c1 ops2 = .ok (c2, e2)) :
    run L c (ops1 ++ ops2) = .ok (c2, e1 ++ e2) := by
  induction ops1 generalizing c e1 with
  | nil => cases h1; simpa using h2
  | cons op ops ih =>
    obtain ⟨d, ev, es, g1, g2, g3⟩ := run_cons h1
    subst g3
    simp [run, g1, ih g2]

theorem Reach.run {L : Lib} {a c evs ops c' evs'} (h : Reach L a c evs)
    (hr : Record.run L c ops = .ok (c', evs')) : Reach L a c' (evs ++ evs') := by
  obtain ⟨c0, o, h1, h2⟩ := h
  exact ⟨c0, o ++ ops, h1, run_append_ok h2 hr⟩

theorem Reach.step {L : Lib} {a c evs op c' ev} (h : Reach L a c evs)
    (hr : Record.step L c op = .ok (c', ev)) : Reach L a c' (evs ++ [ev]) :=
  h.run (ops := [op]) (by simp [Record.run, hr])

theorem Reach.suite {L : Lib} {a c evs} (h : Reach L a c evs) :
    ∃ s, Spec.suite a.ciphersuite = some s := by
  obtain ⟨c0, ops, h1, _⟩ := h
  exact created_suite h1

/-- The three ways an `Unprotect` call on a reachable connection goes: refused without
decrypting; decrypted in vain; or opened. -/
theorem unprotect_cases {L : Lib} {a c evs s} (hr : Reach L a c evs)
    (hs : Spec.suite a.ciphersuite = some s) (f : Fault) (header : Iovec) (payload : List Iovec)
    (out : Iovec) (hp : AllWF payload) (ho : out.WF) :
    (∃ r, unprotect L f c header payload out = .ok (c, r) ∧ r.code ≠ .ok ∧ r.written = 0 ∧
      r.call = none ∧ r.rekey = none ∧ (r.out = out ∨ r.out = out.setBytes (zeros out.len)) ∧
      (r.code = .alertCloseNotify ↔ c.closeNotify = true) ∧ r.code ≠ .alertOther ∧
      r.code ≠ .invalidRecord ∧ (r.code = .internalError → r.out = out.setBytes (zeros out.len)) ∧
      r.inner = none) ∨
    (c.closeNotify = false ∧ header = .buf (Spec.recordHeader (flat payload).length) ∧
     17 ≤ (flat payload).length ∧ (flat payload).length ≤ 16401 ∧
     (inPos L a s evs).seq < 2 ^ 64 ∧ At L c.inC (inPos L a s evs) ∧
     (let d := inPos L a s evs
      let call : AeadCall := ⟨d.key L, d.nonce L, header.bytes, flat payload⟩
      (unprotect L f c header payload out = .ok ({ c with inC := bump c.inC },
          ⟨.internalError, 0, out.setBytes (zeros out.len), some call, none, none⟩) ∧
        (f.evp = .none → (flat payload).length - 16 ≤ out.len →
          d.open L header.bytes (flat payload) = none)) ∨
      ∃ p ob, d.open L header.bytes (flat payload) = some p ∧ out = .buf ob ∧
        p.length ≤ ob.length ∧ 1 ≤ p.length ∧ p.length + 16 = (flat payload).length ∧
        unprotect L f c header payload out =
          dispatch L f.key { c with inC := bump c.inC } (some call)
            (p ++ ob.drop p.length) p.length)) := by
  have hfl := hp.totalLen_eq
  rcases unprotect_spec L f c header payload out (hr.good hs).1.nonce hp ho with
    ⟨h1, h2⟩ | ⟨h1, h⟩
  · left; exact ⟨_, h2, by simp, rfl, rfl, rfl, Or.inl rfl, by simp [h1], by simp, by simp, by simp, rfl⟩
  rcases h with ⟨_, h2⟩ | ⟨_, h2⟩ | ⟨hlo, hhi, h⟩
  · left; exact ⟨_, h2, by simp, rfl, rfl, rfl, Or.inl rfl, by simp [h1], by simp, by simp, by simp, rfl⟩
  · left; exact ⟨_, h2, by simp, rfl, rfl, rfl, Or.inl rfl, by simp [h1], by simp, by simp, by simp, rfl⟩
  rcases h with ⟨_, h2⟩ | ⟨hhd, h⟩
  · left; exact ⟨_, h2, by simp, rfl, rfl, rfl, Or.inl rfl, by simp [h1], by simp, by simp, by simp, rfl⟩
  rcases h with ⟨_, h2⟩ | ⟨hb, h⟩
  · left; exact ⟨_, h2, by simp, rfl, rfl, rfl, Or.inr rfl, by simp [h1], by simp, by simp, by simp, rfl⟩
  right
  rcases hr.inAt hs with hf | hat
  · rw [blocked_of_alwaysFail hf] at hb; cases hb
  have hlt := hat.lt hb
  have hd5 : header.len = 5 := by rw [hhd]; rfl
  rw [hfl] at hhd
  refine ⟨h1, hhd, by omega, by omega, hlt, hat, ?_⟩
  have e1 : header.bytes = Spec.recordHeader (totalLen payload) := by rw [hhd, hfl]; rfl
  have e2 : c.inC.aead.alg = (inPos L a s evs).suite.alg := hat.good.alg
  simp only [hat.key, hat.nonce hlt, e2] at h
  simp only [e1, Spec.Dir.open, ← hfl]
  rcases h with h | h
  · exact Or.inl h
  · exact Or.inr h

end S2A.Record
