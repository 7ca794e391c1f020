import Verif.Lemmas.ReferenceHist
/-
Everything that the reference machine may do if the library fails does happen.
-/
namespace S2A

/-- Every call of the AEAD part of the library fails. -/
def EvpFault.all : EvpFault := ⟨true, fun _ => true, fun _ => true, true, true, true⟩

/-- Every call of the HMAC part of the library fails. -/
def HkdfFault.all : HkdfFault := ⟨true, true, fun _ => true⟩

namespace Aead

theorem encrypt_all {L : Lib} {c : Crypter} {nonce : Bytes} {aad pt : List Iovec} {out : Iovec}
    {r : Result} (h : c.encrypt L .all nonce aad pt out = .ok r) : r.status ≠ .ok := by
  unfold Crypter.encrypt at h
  split at h
  · unfold boringEncrypt at h
    cases out with
    | null n => cases h
    | buf ob =>
      simp only [EvpFault.all, if_true] at h
      repeat (split at h; · cases h; simp)
      cases h; simp
  · unfold evpEncrypt at h
    cases out with
    | null n => cases h
    | buf ob =>
      simp only [EvpFault.all, if_true] at h
      split at h <;> (cases h; simp)

theorem decrypt_all {L : Lib} {c : Crypter} {nonce : Bytes} {aad pt : List Iovec} {out : Iovec}
    {r : Result} (h : c.decrypt L .all nonce aad pt out = .ok r) : r.status ≠ .ok := by
  unfold Crypter.decrypt at h
  split at h
  · unfold boringDecrypt at h
    simp only [EvpFault.all, Bool.true_or, if_true] at h
    split at h
    · cases h
    repeat (split at h; · cases h; simp)
    cases h; simp
  · unfold evpDecrypt at h
    simp only [EvpFault.all, if_true] at h
    split at h
    · cases h
    repeat (split at h; · cases h; simp)
    cases h; simp

end Aead

namespace HalfConn

/-- Every call of the library in a key update fails. -/
def KeyFault.all : KeyFault := ⟨.all, .all, .all, true⟩

theorem advanceSecret_all {L : Lib} {cs : Ciphersuite} {secret : Bytes} :
    ∃ st b, advanceSecret L .all cs secret = .ok (st, b) ∧ st ≠ .ok := by
  unfold advanceSecret
  cases hh : ciphersuiteToHash cs with
  | error e =>
    refine ⟨_, _, rfl, ?_⟩
    cases cs <;> simp [ciphersuiteToHash] at hh <;> (rw [← hh]; simp)
  | ok h =>
    clear hh
    simp only [Hkdf.deriveSecret]
    cases h <;> simp only [HkdfFault.all, if_true]
    case other => exact ⟨_, _, rfl, by simp⟩
    all_goals
      split
      · exact ⟨_, _, rfl, by simp⟩
      · split <;> exact ⟨_, _, rfl, by simp⟩

theorem updateKey_all {L : Lib} {hc hc' : HalfConn} {st}
    (h : updateKey L KeyFault.all hc = .ok (hc', st)) : st ≠ .ok := by
  obtain ⟨st1, b, e1, e2⟩ := advanceSecret_all (L := L) (cs := hc.cs) (secret := hc.secret)
  unfold updateKey at h
  have : KeyFault.all.advance = .all := rfl
  rw [this, e1] at h
  simp only [exec_bind_ok] at h
  rw [if_pos e2] at h
  cases h
  exact e2

end HalfConn

namespace Record
open HalfConn (exec_bind_eq_ok nonceMask_spec bump blocked)
open Spec (Machine)

theorem protect_all {L : Lib} {c c' : Conn} {rt : RecordType} {pt : List Iovec} {rec : Iovec}
    {r : Result} (h : protect L .all c rt pt rec = .ok (c', r)) : r.code ≠ .ok := by
  unfold protect at h
  simp only at h
  split at h
  · cases h; simp
  split at h
  · cases h; simp
  cases rec with
  | null n => cases h
  | buf rb =>
    simp only [exec_bind_eq_ok] at h
    obtain ⟨rb', _, h⟩ := h
    cases ht : convertRecordType rt with
    | error e =>
      rw [ht] at h
      cases h
      refine convertStatus_ne ?_
      rintro rfl
      cases rt <;> cases ht
    | ok t =>
      rw [ht] at h
      simp only [exec_bind_eq_ok] at h
      obtain ⟨rest, _, ⟨outC, call, r1⟩, henc, h⟩ := h
      have hst : r1.status ≠ .ok := by
        unfold HalfConn.encrypt at henc
        split at henc
        · cases henc; simp
        · simp only [exec_bind_eq_ok] at henc
          obtain ⟨⟨n, hc'⟩, _, r2, e1, e2⟩ := henc
          cases e2
          exact Aead.encrypt_all e1
      simp only at h
      rw [if_pos hst] at h
      cases h
      exact convertStatus_ne hst

theorem unprotect_all {L : Lib} {k : KeyFault} {c : Conn} {header out : Iovec}
    {payload : List Iovec} (hn : c.inC.nonce.length = 12) (hp : AllWF payload) (ho : out.WF)
    (hcn : c.closeNotify = false) (h1 : 22 ≤ header.len + totalLen payload)
    (h2 : header.len + totalLen payload ≤ 16406)
    (h3 : header = .buf (Spec.recordHeader (totalLen payload))) (h4 : blocked c.inC = false) :
    ∃ r, unprotect L ⟨.all, k⟩ c header payload out = .ok ({ c with inC := bump c.inC }, r) ∧
      r.code = .internalError ∧ r.written = 0 := by
  unfold unprotect
  have hmax : 22 + kMaxPlaintext = 16406 := rfl
  have hl5 : header.len = 5 := by rw [h3]; rfl
  have hv := validateHeader_iff header (totalLen payload) (by omega)
  rw [if_neg (by simp [hcn])]
  simp only [recordOverhead_eq]
  rw [if_neg (by omega), if_neg (by omega), if_neg (by simp [hv.2 h3])]
  unfold HalfConn.decrypt
  rw [if_neg (by rw [show (c.inC.alwaysFail || c.inC.overflowed) = false from h4]; simp),
    nonceMask_spec _ hn]
  simp only [exec_bind_ok]
  obtain ⟨st, w, ob', e1, e2, _⟩ := Aead.Crypter.decrypt_spec L .all c.inC.aead
    (Spec.recordNonce c.inC.nonce c.inC.seq.toNat) [header] payload out
    (totalLen_intLens (by simp; omega)) (totalLen_intLens (by omega)) hp ho
  have hst := Aead.decrypt_all e1
  rw [e1]
  have hw : (out.setBytes ob').WF := by cases out <;> simp_all [Iovec.setBytes, Iovec.WF]
  simp only [exec_bind_ok, exec_pure]
  rw [if_pos hst, zeroOut_wf hw]
  exact ⟨_, rfl, rfl, rfl⟩

/-- The call with other failures of the library. -/
def Op.withFault (f : Fault) : Op → Op
  | .protect _ rt pt rec => .protect f.evp rt pt rec
  | .unprotect _ h pl out => .unprotect f h pl out
  | .updateOutboundKey _ => .updateOutboundKey f.key

theorem withFault_plain (f : Fault) (op : Op) : (op.withFault f).plain = op.plain := by
  cases op <;> rfl

theorem withFault_usable {f : Fault} {op : Op} (h : op.Usable) : (op.withFault f).Usable := by
  cases op <;> exact h

/-- Each lapse happens for some failures of the library. -/
theorem acts_lapse {L : Lib} {c : Conn} {m m' : Machine} {op : Op} (a : Acts L c m)
    (hu : op.Usable) (hl : m.Lapse L op.plain m') :
    ∃ f c' e, step L c (op.withFault f) = .ok (c', e) ∧ e.plain = (.internalError, []) ∧
      Acts L c' m' := by
  cases op with
  | protect f rt pt rec =>
    obtain ⟨h1, h2⟩ := hu
    obtain ⟨l1, rfl⟩ := hl
    refine ⟨⟨.all, .none⟩, ?_⟩
    rcases acts_send_or (f := .all) (rt := rt) a h1 h2 with hg | ⟨hf, c', r, m', e1, ⟨e2, _, rfl⟩, e4, e5⟩
    · generalize m.send L rt (flat pt) rec.len = y at hg l1
      obtain ⟨m1, code, w⟩ := y
      obtain ⟨c', r, e1, e2, e3, e4⟩ := hg
      exact absurd (e2.trans l1) (protect_all e1)
    · refine ⟨c', .sealed r, ?_, ?_, e5⟩
      · simp only [Op.withFault, step, e1, exec_bind_ok, exec_pure]
      · rw [Event.plain, e2, e4]
  | unprotect f h pl out =>
    obtain ⟨h1, h2, h3⟩ := hu
    obtain ⟨⟨t1, t2, t3, t4, t5, t6⟩, hl⟩ := hl
    rw [← wf_len h1, ← h2.totalLen_eq] at t2 t3
    rw [← h2.totalLen_eq] at t4
    have hhd : h = .buf (Spec.recordHeader (totalLen pl)) := by
      cases h with
      | null n => simp [Iovec.bytes, Spec.recordHeader] at t4
      | buf d => simp only [Iovec.bytes] at t4; rw [t4]
    have hat := a.inp.live t5
    have hb : blocked c.inC = false := by
      by_cases hb : blocked c.inC = true
      · rw [a.inp.blocked] at hb
        rcases hb with hb | hb
        · rw [t5] at hb; cases hb
        · have := hb.1; omega
      · exact eq_false_of_ne_true hb
    have a' : Acts L { c with inC := HalfConn.bump c.inC } { m with inp := m.inp.next } :=
      ⟨a.out, by rw [t5]; exact .of (hat.bump t6), a.ear, a.tinv, a.kept, a.stage, a.waiting,
        a.closed, a.sent⟩
    rcases hl with rfl | ⟨inner, content, l1, l2, l3, ear, s, l4, l5, l6, rfl⟩
    · obtain ⟨r, e1, e2, e3⟩ := unprotect_all (L := L) (k := .none) hat.good.nonce h2 h3
        (a.closed.trans t1) t2 t3 hhd hb
      refine ⟨⟨.all, .none⟩, _, .opened r, ?_, ?_, a'⟩
      · simp only [Op.withFault, step, e1, exec_bind_ok, exec_pure]
      · rw [Event.plain, e2, e3]; rfl
    · refine ⟨⟨.none, HalfConn.KeyFault.all⟩, ?_⟩
      have hs := unprotect_spec L ⟨.none, HalfConn.KeyFault.all⟩ c h pl out hat.good.nonce h2 h3
      have hop : Spec.aeadOpen L c.inC.aead.alg c.inC.aead.key
          (Spec.recordNonce c.inC.nonce c.inC.seq.toNat) (Spec.recordHeader (totalLen pl))
          (flat pl) = some inner := by
        rw [← l2, t4, hat.nonce t6, hat.key, hat.good.alg]
        rfl
      unfold UnprotectSpec at hs
      rw [← h2.totalLen_eq] at l1
      have hcl : c.closeNotify = false := a.closed.trans t1
      rcases hs with ⟨k, _⟩ | ⟨_, ⟨k, _⟩ | ⟨k, _⟩ | ⟨_, _, ⟨k, _⟩ | ⟨_, ⟨k, _⟩ | ⟨_, hs⟩⟩⟩⟩
      · rw [hcl] at k; cases k
      · omega
      · omega
      · exact absurd hhd k
      · rw [hb] at k; cases k
      rcases hs with ⟨_, k⟩ | ⟨p, ob, k1, k2, k3, k4, k5, k6⟩
      · have := k rfl (by omega)
        rw [hop] at this
        cases this
      rw [hop] at k1
      cases k1
      rcases acts_hear_or (f := HalfConn.KeyFault.all) (call := some ⟨c.inC.aead.key,
          Spec.recordNonce c.inC.nonce c.inC.seq.toNat, Spec.recordHeader (totalLen pl),
          flat pl⟩) (tail := ob.drop inner.length) a' t5 l3 with
        ⟨_, hg⟩ | ⟨_, c', r, m', e1, ⟨e2, ear', s', g1, g2, g3, g4⟩, e4, e5⟩
      · obtain ⟨hc', hh⟩ := hg _ _ l4 l5 l6
        exact absurd rfl (HalfConn.updateKey_all hh)
      · rw [l4] at g1
        cases g1
        subst g4
        refine ⟨c', .opened r, ?_, ?_, e5⟩
        · simp only [Op.withFault, step, k6, exec_bind_ok, exec_pure, e1]
        · rw [Event.plain, e2, e4]
  | updateOutboundKey f =>
    obtain rfl := hl
    refine ⟨⟨.none, HalfConn.KeyFault.all⟩, ?_⟩
    rcases acts_rekey_or (f := HalfConn.KeyFault.all) a with ⟨c', e1, e2⟩ | ⟨hf, c', st, e1, e2, e3⟩
    · simp only [updateOutboundKey, exec_bind_eq_ok] at e1
      obtain ⟨⟨hc', st⟩, g1, g2⟩ := e1
      cases g2
      exact absurd rfl (HalfConn.updateKey_all g1)
    · refine ⟨c', .outboundUpdated st, ?_, ?_, e3⟩
      · simp only [Op.withFault, step, e1, exec_bind_ok, exec_pure]
      · rw [Event.plain, if_neg e2]

/-- And so do all histories with lapses. -/
theorem acts_may {L : Lib} {m m' : Machine} {xs : List (Spec.Call × Bool)} {as : List Spec.Answer}
    (h : Machine.May L m xs m' as) : ∀ {ops : List Op} {c : Conn}, Acts L c m →
    (∀ op ∈ ops, op.Usable) → ops.map Op.plain = xs.map Prod.fst →
    ∃ fs : List Fault, fs.length = ops.length ∧ ∃ c' es,
      run L c (List.zipWith Op.withFault fs ops) = .ok (c', es) ∧ es.map Event.plain = as ∧
      Acts L c' m' := by
  induction h with
  | nil m =>
    intro ops c a _ hx
    simp only [List.map_nil, List.map_eq_nil_iff] at hx
    subst hx
    exact ⟨[], rfl, c, [], rfl, rfl, a⟩
  | @step m m1 m2 x b xs ans as h1 _ ih =>
    intro ops c a hu hx
    cases ops with
    | nil => cases hx
    | cons op ops =>
      simp only [List.map_cons, List.cons.injEq] at hx
      obtain ⟨hx, hxs⟩ := hx
      have hf : (op.withFault .none).Fine := by
        have := hu op (by simp)
        cases op <;> first | exact ⟨rfl, this⟩ | rfl
      have hm := acts_step a hf
      rw [withFault_plain, hx, h1] at hm
      obtain ⟨c1, e, e1, e2, e3⟩ := hm
      obtain ⟨fs, g1, c', es, g2, g3, g4⟩ := ih e3 (fun op h => hu op (by simp [h])) hxs
      refine ⟨.none :: fs, by simp [g1], c', e :: es, ?_, by simp [e2, g3], g4⟩
      simp only [List.zipWith_cons_cons, run, e1, g2, exec_bind_ok, exec_pure]
  | @lapse m m1 m2 x xs as h1 _ ih =>
    intro ops c a hu hx
    cases ops with
    | nil => cases hx
    | cons op ops =>
      simp only [List.map_cons, List.cons.injEq] at hx
      obtain ⟨hx, hxs⟩ := hx
      subst hx
      obtain ⟨f, c1, e, e1, e2, e3⟩ := acts_lapse a (hu op (by simp)) h1
      obtain ⟨fs, g1, c', es, g2, g3, g4⟩ := ih e3 (fun op h => hu op (by simp [h])) hxs
      refine ⟨f :: fs, by simp [g1], c', e :: es, ?_, by simp [e2, g3], g4⟩
      simp only [List.zipWith_cons_cons, run, e1, g2, exec_bind_ok, exec_pure]

end Record
end S2A
