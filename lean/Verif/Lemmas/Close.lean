import Verif.Lemmas.Orderly
import Verif.Lemmas.FrameAdversary
namespace S2A.Record
open HalfConn (AeadCall Good At exec_bind_eq_ok)
open Spec (Unforged KeysDistinct sentData deliveredData sentHandshakes Orderly GoodMessages
  ClosesLast)

/-! ### Reports of a close-notify -/

theorem retrieveAndSend_close {c c' : Conn} (h : retrieveAndSend c = .ok c') :
    c'.closeNotify = c.closeNotify := by
  unfold retrieveAndSend at h
  simp only [exec_bind_eq_ok] at h
  obtain ⟨⟨h', r⟩, _, h⟩ := h
  cases r <;> (cases h; rfl)

theorem handleTickets_close {c c' : Conn} {r} (h : handleTickets c r = .ok c') :
    c'.closeNotify = c.closeNotify := by
  unfold handleTickets at h
  split at h
  · cases h; rfl
  · simp only at h
    have hc : ∀ b : Bool, (if b then { c with phase := .receiving } else c).closeNotify =
        c.closeNotify := by intro b; cases b <;> rfl
    split at h
    · simp only [exec_bind_eq_ok] at h
      obtain ⟨c1, h1, h2⟩ := h
      cases h2
      rw [← hc r.containsTicket, ← retrieveAndSend_close h1]
    · cases h; exact hc _

theorem handleResult_close {L : Lib} {f : KeyFault} {c c' : Conn} {res st rekey}
    (h : handleResult L f c res = .ok (c', st, rekey)) : c'.closeNotify = c.closeNotify := by
  rcases handleResult_cases h with ⟨_, _, rfl, _⟩ | ⟨x, _, ⟨_, _, _, _, _, _, rfl⟩ | ⟨_, h1, _⟩⟩
  · rfl
  · rfl
  · have := handleTickets_close h1
    exact this

/-- Close-notify is reported exactly when an alert record is opened that says so. -/
theorem unprotect_close {L : Lib} {f c header payload out c' r s} (hg : Good s c.inC)
    (hp : AllWF payload) (ho : out.WF) (hcn : c.closeNotify = false)
    (h : unprotect L f c header payload out = .ok (c', r)) :
    (r.code = .alertCloseNotify ∧ c'.closeNotify = true ∧ r.rekey = none ∧
      ∃ p content call, r.call = some call ∧ r.inner = some p ∧
        Spec.unpad p = some (content, Spec.alertType)) ∨
    (r.code ≠ .alertCloseNotify ∧ c'.closeNotify = false) := by
  rcases unprotect_spec L f c header payload out hg.nonce hp ho with
    ⟨h1, _⟩ | ⟨_, ⟨_, h2⟩ | ⟨_, h2⟩ | ⟨_, _, ⟨_, h2⟩ | ⟨_, ⟨_, h2⟩ | ⟨_, h2⟩⟩⟩⟩
  · rw [hcn] at h1; cases h1
  · rw [h] at h2; cases h2; exact Or.inr ⟨by simp, hcn⟩
  · rw [h] at h2; cases h2; exact Or.inr ⟨by simp, hcn⟩
  · rw [h] at h2; cases h2; exact Or.inr ⟨by simp, hcn⟩
  · rw [h] at h2; cases h2; exact Or.inr ⟨by simp, hcn⟩
  · simp only at h2
    rcases h2 with ⟨h2, _⟩ | ⟨p, ob, ho1, ho2, ho3, ho4, ho5, h1⟩
    · rw [h] at h2; cases h2; exact Or.inr ⟨by simp, hcn⟩
    rw [h] at h1
    symm at h1
    have hin := dispatch_inner h1
    have hcall := (dispatch_frame h1).2.1
    rcases unpad_cases p with ⟨hu, _⟩ | ⟨content, t, k, ht, hpe, hu⟩
    · rw [dispatch_none _ _ _ _ _ _ hu] at h1; cases h1; exact Or.inr ⟨by simp, hcn⟩
    by_cases t1 : t = Spec.alertType
    · subst t1
      rw [dispatch_alert _ _ _ _ _ _ hu] at h1
      split at h1
      · cases h1; exact Or.inr ⟨by simp, hcn⟩
      · split at h1
        · cases h1
          exact Or.inl ⟨rfl, rfl, rfl, p, content, _, rfl, rfl, hu⟩
        · cases h1; exact Or.inr ⟨by simp, hcn⟩
    right
    by_cases t2 : t = Spec.handshakeType
    · rw [t2] at hu
      rw [dispatch_handshake _ _ _ _ _ _ hu] at h1
      simp only [exec_bind_eq_ok] at h1
      obtain ⟨⟨h', res⟩, _, ⟨c1, st, rk⟩, h3, h2⟩ := h1
      cases h2
      refine ⟨?_, (handleResult_close h3).trans hcn⟩
      simp only
      split <;> simp
    by_cases t3 : t = Spec.appDataType
    · rw [t3] at hu
      rw [dispatch_appData _ _ _ _ _ _ hu] at h1
      split at h1
      · cases h1; exact ⟨by simp, hcn⟩
      · split at h1
        · simp only [exec_bind_eq_ok] at h1
          obtain ⟨x, h3, h2⟩ := h1
          cases h2
          exact ⟨by simp, (retrieveAndSend_close h3).trans hcn⟩
        · cases h1; exact ⟨by simp, hcn⟩
    · rw [dispatch_other _ _ _ _ _ _ hu t1 t2 t3] at h1
      cases h1; exact ⟨by simp, hcn⟩

theorem created_close {L : Lib} {a c} (h : Created L a c) : c.closeNotify = false := by
  obtain ⟨fi, fo, h⟩ := h
  unfold create at h
  split at h
  · cases h
  split at h
  · cases h
  split at h
  · cases h
  split at h
  · cases h
  simp only [exec_bind_eq_ok] at h
  obtain ⟨ri, _, h⟩ := h
  cases ri with
  | error e => cases h
  | ok i =>
    simp only [exec_bind_eq_ok] at h
    obtain ⟨ro, _, h⟩ := h
    cases ro with
    | error e => cases h
    | ok o => cases h; rfl

theorem step_close {L : Lib} {s c op c' ev} (hg : Good s c.inC) (hv : Spec.ValidArgs op)
    (hcn : c.closeNotify = false) (h : step L c op = .ok (c', ev))
    (hne : ∀ r, ev = .opened r → r.code ≠ .alertCloseNotify) : c'.closeNotify = false := by
  cases op with
  | protect f rt pt rec =>
    simp only [step, exec_bind_eq_ok] at h
    obtain ⟨⟨c1, r⟩, h1, h2⟩ := h
    cases h2
    have ho := (protect_frame h1).1
    generalize c1.outC = o at ho
    rw [ho]
    exact hcn
  | updateOutboundKey f =>
    simp only [step, updateOutboundKey, exec_bind_eq_ok] at h
    obtain ⟨⟨c1, r⟩, ⟨⟨o, s⟩, _, h1⟩, h2⟩ := h
    cases h1
    cases h2
    exact hcn
  | unprotect f hdr pl out =>
    simp only [step, exec_bind_eq_ok] at h
    obtain ⟨⟨c1, r⟩, h1, h2⟩ := h
    cases h2
    rcases unprotect_close hg hv.1 hv.2 hcn h1 with ⟨h3, _⟩ | ⟨_, h3⟩
    · exact absurd h3 (hne r rfl)
    · exact h3

theorem run_close {L : Lib} {s ops c c' evs} (h : run L c ops = .ok (c', evs)) (hi : Good s c.inC)
    (ho : Good s c.outC) (hv : ∀ op ∈ ops, Spec.ValidArgs op) (hcn : c.closeNotify = false)
    (hne : ∀ r, .opened r ∈ evs → r.code ≠ .alertCloseNotify) : c'.closeNotify = false := by
  induction ops generalizing c evs with
  | nil => cases h; exact hcn
  | cons op ops ih =>
    obtain ⟨c1, ev, es, h1, h2, h3⟩ := run_cons h
    subst h3
    obtain ⟨g1, g2⟩ := step_good h1 hi ho
    refine ih h2 g1 g2 (fun o ho => hv o (List.mem_cons_of_mem _ ho)) ?_
      fun r hr => hne r (List.mem_cons_of_mem _ hr)
    exact step_close hi (hv _ List.mem_cons_self) hcn h1 fun r hr => hne r (hr ▸ List.mem_cons_self)

/-! ### Prefix and completeness -/

/-- The sender's records form a stream. -/
theorem stream_of_orderly {L : Lib} {s ops c c' evs} {q : Nat} (ho : Orderly [] ops evs)
    (hg : GoodMessages (sentHandshakes ops evs)) (h : run L c ops = .ok (c', evs))
    (gi : Good s c.inC) (go : Good s c.outC) : Stream (outEntries 0 q evs) :=
  ⟨outEntries_pairwise _ _ _, by rw [← sentHandshakes_eq 0 q h gi go]; exact hg,
    fun he hm hc => orderly_gap ho h gi go he hm (by simpa using hc)⟩

theorem orderly_entries {L : Lib} {s : Spec.Suite} {a b : CreateArgs} {a0 ca b0 cb : Conn}
    {opsA opsB : List Op} {evsA evsB evs : List Event} (hb : Spec.suite b.ciphersuite = some s)
    (hm : Spec.Mirrored a b) (ha0 : Created L a a0) (hb0 : Created L b b0)
    (hra : run L a0 opsA = .ok (ca, evsA)) (hrb : run L b0 opsB = .ok (cb, evs))
    (ho : Orderly [] opsA evsA) (hg : GoodMessages (sentHandshakes opsA evsA))
    (hsub : ∀ y ∈ inEntries 0 b.inSequence.toNat evsB, y ∈ outEntries 0 b.inSequence.toNat evsA)
    (hev : ∀ ev ∈ evsB, EventOk L s.alg ev) (hpre : evs <+: evsB)
    (hok : ∀ r, .opened r ∈ evs → r.code = .ok) :
    (∃ rest, outEntries 0 b.inSequence.toNat evsA = inEntries 0 b.inSequence.toNat evs ++ rest ∧
      ∀ z ∈ rest, From (recvPos 0 b.inSequence.toNat evs).1
        (recvPos 0 b.inSequence.toNat evs).2 z) ∧
    (deliveredData evs).flatten =
      ((inEntries 0 b.inSequence.toNat evs).filterMap Entry.data).flatten := by
  have ha : Spec.suite a.ciphersuite = some s := by rw [hm.suite]; exact hb
  have ga := ha0.at ha
  obtain ⟨t, rfl⟩ := hpre
  have hev' : ∀ ev ∈ evs, EventOk L s.alg ev := fun ev h => hev ev (List.mem_append_left _ h)
  refine ⟨?_, delivered_flatten _ _ hev' hok⟩
  refine (receiver_follows (alg := s.alg) ⟨b0, opsB, hb0, hrb⟩
    (stream_of_orderly ho hg hra ga.1.good ga.2.good) (fun y hy => outEntries_from hy) hev' hok
    fun y hy => hsub y ?_).2
  rw [inEntries_append]
  exact List.mem_append_left _ hy

theorem orderly_prefix {L : Lib} {s : Spec.Suite} {a b : CreateArgs} {a0 ca b0 cb : Conn}
    {opsA opsB : List Op} {evsA evsB : List Event} (hb : Spec.suite b.ciphersuite = some s)
    (hm : Spec.Mirrored a b) (ha0 : Created L a a0) (hb0 : Created L b b0)
    (hra : run L a0 opsA = .ok (ca, evsA)) (hrb : run L b0 opsB = .ok (cb, evsB))
    (hva : ∀ op ∈ opsA, Spec.ValidArgs op) (hvb : ∀ op ∈ opsB, Spec.ValidArgs op)
    (hu : Unforged evsA evsB) (hk : KeysDistinct L s b evsA evsB)
    (ho : Orderly [] opsA evsA) (hg : GoodMessages (sentHandshakes opsA evsA))
    (hok : ∀ r, .opened r ∈ evsB → r.code = .ok) :
    (deliveredData evsB).flatten <+: (sentData opsA evsA).flatten := by
  obtain ⟨h1, h2, h3, _⟩ := opened_subset hb hm ha0 hb0 hra hrb hva hvb hu hk
  obtain ⟨⟨rest, h4, _⟩, h5⟩ := orderly_entries hb hm ha0 hb0 hra hrb ho hg h1 h2
    (List.prefix_refl _) hok
  rw [h5, h3, h4, List.filterMap_append, List.flatten_append]
  exact List.prefix_append _ _

theorem close_complete {L : Lib} {s : Spec.Suite} {a b : CreateArgs} {a0 ca b0 cb c1 : Conn}
    {opsA opsB : List Op} {op : Op} {evsA evs : List Event} {r : Result}
    (hb : Spec.suite b.ciphersuite = some s)
    (hm : Spec.Mirrored a b) (ha0 : Created L a a0) (hb0 : Created L b b0)
    (hra : run L a0 opsA = .ok (ca, evsA)) (hrb : run L b0 opsB = .ok (c1, evs))
    (hst : step L c1 op = .ok (cb, .opened r))
    (hva : ∀ op ∈ opsA, Spec.ValidArgs op) (hvb : ∀ op ∈ opsB, Spec.ValidArgs op)
    (hv : Spec.ValidArgs op)
    (hu : Unforged evsA (evs ++ [.opened r])) (hk : KeysDistinct L s b evsA (evs ++ [.opened r]))
    (ho : Orderly [] opsA evsA) (hg : GoodMessages (sentHandshakes opsA evsA))
    (hcl : ClosesLast opsA)
    (hok : ∀ r, .opened r ∈ evs → r.code = .ok) (hc : r.code = .alertCloseNotify) :
    (deliveredData evs).flatten = (sentData opsA evsA).flatten := by
  have ha : Spec.suite a.ciphersuite = some s := by rw [hm.suite]; exact hb
  have ga := ha0.at ha
  have gb := hb0.at hb
  have hfull : run L b0 (opsB ++ [op]) = .ok (cb, evs ++ [.opened r]) := by
    refine run_append_ok hrb ?_
    simp only [run, hst, exec_bind_ok, exec_pure]
  have hvb' : ∀ o ∈ opsB ++ [op], Spec.ValidArgs o := by
    intro o h
    rcases List.mem_append.1 h with h | h
    · exact hvb o h
    · rw [List.mem_singleton.1 h]; exact hv
  obtain ⟨h1, h2, h3, _⟩ := opened_subset hb hm ha0 hb0 hra hfull hva hvb' hu hk
  obtain ⟨⟨rest, h4, h6⟩, h5⟩ := orderly_entries hb hm ha0 hb0 hra hrb ho hg h1 h2
    (List.prefix_append _ _) hok
  have gB := Reach.good ⟨b0, opsB, hb0, hrb⟩ hb
  have hcn : c1.closeNotify = false := run_close hrb gb.1.good gb.2.good hvb (created_close hb0)
    fun r hr hx => by rw [hok r hr] at hx; cases hx
  cases op with
  | protect f rt pt rec =>
    simp only [step, exec_bind_eq_ok] at hst
    obtain ⟨_, _, hst⟩ := hst
    cases hst
  | updateOutboundKey f =>
    simp only [step, exec_bind_eq_ok] at hst
    obtain ⟨_, _, hst⟩ := hst
    cases hst
  | unprotect f hdr pl out =>
    simp only [step, exec_bind_eq_ok] at hst
    obtain ⟨⟨c', r'⟩, hun, hst⟩ := hst
    cases hst
    rcases unprotect_close gB.1 hv.1 hv.2 hcn hun with
      ⟨_, _, hrk, p, content, call, hcall, hin, hup⟩ | ⟨hx, _⟩
    · have hpw := inEntries_pairwise (evs ++ [.opened r']) 0 b.inSequence.toNat
      rw [inEntries_append] at hpw h1
      generalize recvPos 0 b.inSequence.toNat evs = pos at hpw h1 h6
      obtain ⟨e, q⟩ := pos
      have hent : inEntries e q [.opened r'] = [⟨e, q, p⟩] := by
        simp only [inEntries, hcall, hin, ite_self]
      simp only at hpw h1 h6
      rw [hent] at hpw h1
      obtain ⟨rest', rfl, _⟩ := next_entry (outEntries_pairwise evsA 0 b.inSequence.toNat) h4 h6
        (fun x hx => (List.pairwise_append.1 hpw).2.2 x hx _ List.mem_cons_self)
        (h1 _ (List.mem_append_right _ List.mem_cons_self))
      have hlast := closesLast_data hcl hra ga.1.good ga.2.good h4 ⟨content, hup⟩
      rw [h5, h3, h4, List.filterMap_append, List.filterMap_cons_none, hlast, List.append_nil]
      simp [Entry.data, hup, Spec.alertType, Spec.appDataType]
    · exact absurd hc hx

end S2A.Record
