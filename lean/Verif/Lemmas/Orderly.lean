import Verif.Lemmas.Adversary
import Verif.Lemmas.Tidy
import Verif.Spec.Orderly
namespace S2A.Record
open HalfConn (AeadCall Good At exec_bind_eq_ok)
open Spec (seals opens Unforged KeysDistinct sentData deliveredData epochs sentHandshakes Orderly
  GoodMessages CompletesUpdate ClosesLast view UpdatesWhole)

/-! ### Positions of the receiver -/

/-- The position after some events. -/
def recvPos : (e q : Nat) → List Event → Nat × Nat
  | e, q, [] => (e, q)
  | e, q, .opened r :: evs =>
    if r.rekey = some .ok then recvPos (e + 1) 0 evs
    else match r.call with
      | some _ => recvPos e (q + 1) evs
      | none => recvPos e q evs
  | e, q, _ :: evs => recvPos e q evs

theorem inEntries_append (evs evs' : List Event) (e q : Nat) :
    inEntries e q (evs ++ evs') =
      inEntries e q evs ++ inEntries (recvPos e q evs).1 (recvPos e q evs).2 evs' := by
  induction evs generalizing e q with
  | nil => rfl
  | cons ev evs ih =>
    cases ev with
    | sealed r => exact ih _ _
    | outboundUpdated st => exact ih _ _
    | opened r =>
      simp only [List.cons_append, inEntries, recvPos]
      by_cases hk : r.rekey = some .ok
      · simp only [if_pos hk]
        cases r.call with
        | none => exact ih _ _
        | some c =>
          cases r.inner with
          | none => exact ih _ _
          | some p => simp only [ih, List.cons_append]
      · simp only [if_neg hk]
        cases r.call with
        | none => exact ih _ _
        | some c =>
          cases r.inner with
          | none => exact ih _ _
          | some p => simp only [ih, List.cons_append]

theorem inPos_append (evs evs' : List Event) (e q : Nat) :
    recvPos e q (evs ++ evs') = recvPos (recvPos e q evs).1 (recvPos e q evs).2 evs' := by
  induction evs generalizing e q with
  | nil => rfl
  | cons ev evs ih =>
    cases ev with
    | sealed r => exact ih _ _
    | outboundUpdated st => exact ih _ _
    | opened r =>
      simp only [List.cons_append, recvPos]
      split
      · exact ih _ _
      · split <;> exact ih _ _

/-! ### Handshake records -/

/-- The handshake content of a record, if this is what it carries. -/
def Entry.hs (y : Entry) : Option Bytes :=
  match Spec.unpad y.inner with
  | some (m, t) => if t = Spec.handshakeType then some m else none
  | none => none

theorem handshakes_cons (ev : Event) (evs : List Event) :
    handshakes (ev :: evs) = handshakes [ev] ++ handshakes evs :=
  handshakes_append [ev] evs

theorem handshakes_entries {L : Lib} {alg} {evs : List Event} (e q : Nat)
    (hok : ∀ ev ∈ evs, EventOk L alg ev) :
    handshakes evs = (inEntries e q evs).filterMap Entry.hs := by
  induction evs generalizing e q with
  | nil => rfl
  | cons ev evs ih =>
    have ih := fun e q => ih e q fun ev h => hok ev (List.mem_cons_of_mem _ h)
    rw [handshakes_cons]
    cases ev with
    | sealed r => exact ih _ _
    | outboundUpdated st => exact ih _ _
    | opened r =>
      have ho : OpenOk L alg r := hok _ List.mem_cons_self
      have hrest : ∀ k, handshakes evs =
          (if r.rekey = some .ok then inEntries (e + 1) 0 evs
            else inEntries e (q + k) evs).filterMap Entry.hs := by
        intro k
        split <;> exact ih _ _
      simp only [inEntries, handshakes, heard, Result.record, List.filterMap_cons,
        List.filterMap_nil]
      cases hin : r.inner with
      | none =>
        simp only [Option.bind_none, List.filterMap_nil, List.nil_append]
        cases r.call with
        | none => exact hrest 0
        | some c => exact hrest 1
      | some p =>
        obtain ⟨c, hc, _⟩ := ho.1 p hin
        simp only [hc, Option.bind_some, List.filterMap_cons]
        have h1 := hrest 1
        simp only [handshakes, heard, Result.record] at h1
        rw [h1]
        cases hu : Spec.unpad p with
        | none => simp only [Entry.hs, hu, List.filterMap_nil, List.nil_append]
        | some x =>
          obtain ⟨m, t⟩ := x
          by_cases ht : t = Spec.handshakeType
          · simp only [Entry.hs, hu, ht, if_true, List.filterMap_cons, List.filterMap_nil,
              List.cons_append, List.nil_append]
          · simp only [Entry.hs, hu, ht, if_false, List.filterMap_cons, List.filterMap_nil,
              List.nil_append]

theorem contentType_handshake {rt} (h : Spec.contentType rt = some Spec.handshakeType) :
    rt = .handshake := by
  cases rt <;> first | rfl | (simp [Spec.contentType] at h; try exact absurd h (by decide))

/-- What a successful `Protect` puts into the list of records. -/
theorem sealed_entry {L : Lib} {s} {f c rt pt rec c' r} {e q : Nat} {evs : List Event}
    (ho : Good s c.outC) (h : protect L f c rt pt rec = .ok (c', r)) :
    (r.code ≠ .ok ∧ ∃ q', q ≤ q' ∧ outEntries e q (.sealed r :: evs) = outEntries e q' evs) ∨
    (r.code = .ok ∧ ∃ p t, outEntries e q (.sealed r :: evs) =
      ⟨e, q, p⟩ :: outEntries e (q + 1) evs ∧ Spec.contentType rt = some t ∧
      Spec.unpad p = some (flat pt, t)) := by
  obtain ⟨_, hr⟩ := protect_ok ho h
  by_cases hc : r.code = .ok
  · right
    obtain ⟨t, call, ht, hcall, hd⟩ := hr hc
    have hu := unpad_inner (flat pt) t 0 (contentType_ne_zero ht)
    rw [← hd] at hu
    exact ⟨hc, call.data, t, by simp only [outEntries, hcall, hc, if_true], ht, hu⟩
  · left
    refine ⟨hc, ?_⟩
    simp only [outEntries, if_neg hc]
    cases r.call with
    | none => exact ⟨q, Nat.le_refl _, rfl⟩
    | some c => exact ⟨q + 1, by omega, rfl⟩

theorem sentHandshakes_eq {L : Lib} {s ops c c' evs} (e q : Nat)
    (h : run L c ops = .ok (c', evs)) (hi : Good s c.inC) (ho : Good s c.outC) :
    sentHandshakes ops evs = (outEntries e q evs).filterMap Entry.hs := by
  induction ops generalizing c evs e q with
  | nil => cases h; rfl
  | cons op ops ih =>
    obtain ⟨c1, ev, es, h1, h2, h3⟩ := run_cons h
    subst h3
    obtain ⟨g1, g2⟩ := step_good h1 hi ho
    have ih := fun e q => ih e q h2 g1 g2
    cases op with
    | unprotect f hdr pl out =>
      simp only [step, exec_bind_eq_ok] at h1
      obtain ⟨⟨d', r'⟩, q1, q2⟩ := h1
      cases q2
      exact ih _ _
    | updateOutboundKey f =>
      simp only [step, exec_bind_eq_ok] at h1
      obtain ⟨⟨d', st⟩, q1, q2⟩ := h1
      cases q2
      cases st <;> exact ih _ _
    | protect f rt pt rec =>
      simp only [step, exec_bind_eq_ok] at h1
      obtain ⟨⟨d', r⟩, q1, q2⟩ := h1
      cases q2
      have hs : sentHandshakes (.protect f rt pt rec :: ops) (.sealed r :: es) =
          if r.code = .ok ∧ rt = .handshake then flat pt :: sentHandshakes ops es
          else sentHandshakes ops es := by
        cases rt <;> by_cases hc : r.code = .ok <;> simp [sentHandshakes, hc]
      rw [hs]
      rcases sealed_entry (e := e) (q := q) (evs := es) ho q1 with
        ⟨hc, q', _, hq⟩ | ⟨hc, p, t, hq, ht, hu⟩
      · rw [if_neg (by simp [hc]), hq, ih]
      · rw [hq]
        by_cases hrt : rt = .handshake
        · subst hrt
          cases ht
          rw [if_pos ⟨hc, rfl⟩, List.filterMap_cons_some (b := flat pt), ih]
          simp only [Entry.hs, hu, if_true]
        · have : t ≠ Spec.handshakeType := fun h => hrt (contentType_handshake (by rw [ht, h]))
          rw [if_neg (by simp [hrt]), List.filterMap_cons_none, ih]
          simp only [Entry.hs, hu, if_neg this]

/-! ### The sender -/

/-- After a record that completes a key update, everything is sealed under later keys. -/
theorem orderly_gap {L : Lib} {s ops c c' evs} {hs : List Bytes} {e q : Nat}
    (ho : Orderly hs ops evs) (h : run L c ops = .ok (c', evs)) (gi : Good s c.inC)
    (go : Good s c.outC) {E1 E2 y m} (he : outEntries e q evs = E1 ++ y :: E2)
    (hm : y.hs = some m) (hc : CompletesUpdate (hs ++ E1.filterMap Entry.hs) m) :
    ∀ z ∈ E2, y.epoch < z.epoch := by
  induction ho generalizing c e q E1 with
  | stop hs => cases E1 <;> cases he
  | @receive hs f hd p o r ops evs _ ih =>
    obtain ⟨c1, ev, es, h1, h2, h3⟩ := run_cons h
    cases h3
    obtain ⟨g1, g2⟩ := step_good h1 gi go
    exact ih h2 g1 g2 he hc
  | @failed hs f rt pt rec r ops evs hne _ ih =>
    obtain ⟨c1, ev, es, h1, h2, h3⟩ := run_cons h
    cases h3
    obtain ⟨g1, g2⟩ := step_good h1 gi go
    simp only [step, exec_bind_eq_ok] at h1
    obtain ⟨⟨d', r'⟩, q1, q2⟩ := h1
    cases q2
    rcases sealed_entry (e := e) (q := q) (evs := evs) go q1 with
      ⟨_, q', _, hq⟩ | ⟨hok, _⟩
    · rw [hq] at he
      exact ih h2 g1 g2 he hc
    · exact absurd hok hne
  | @send hs f rt pt rec r ops evs hne _ ih =>
    obtain ⟨c1, ev, es, h1, h2, h3⟩ := run_cons h
    cases h3
    obtain ⟨g1, g2⟩ := step_good h1 gi go
    simp only [step, exec_bind_eq_ok] at h1
    obtain ⟨⟨d', r'⟩, q1, q2⟩ := h1
    cases q2
    rcases sealed_entry (e := e) (q := q) (evs := evs) go q1 with
      ⟨_, q', _, hq⟩ | ⟨hok, p, t, hq, ht, hu⟩
    · rw [hq] at he
      exact ih h2 g1 g2 he hc
    · rw [hq] at he
      have ht : t ≠ Spec.handshakeType := fun h => hne (contentType_handshake (by rw [ht, h]))
      have hn : Entry.hs ⟨e, q, p⟩ = none := by simp only [Entry.hs, hu, if_neg ht]
      cases E1 with
      | nil =>
        simp only [List.nil_append, List.cons.injEq] at he
        rw [← he.1, hn] at hm
        cases hm
      | cons x E1 =>
        simp only [List.cons_append, List.cons.injEq] at he
        rw [← he.1, List.filterMap_cons_none hn] at hc
        exact ih h2 g1 g2 he.2 hc
  | @message hs f pt rec r ops evs hnc hok _ ih =>
    obtain ⟨c1, ev, es, h1, h2, h3⟩ := run_cons h
    cases h3
    obtain ⟨g1, g2⟩ := step_good h1 gi go
    simp only [step, exec_bind_eq_ok] at h1
    obtain ⟨⟨d', r'⟩, q1, q2⟩ := h1
    cases q2
    rcases sealed_entry (e := e) (q := q) (evs := evs) go q1 with
      ⟨hn, _⟩ | ⟨_, p, t, hq, ht, hu⟩
    · exact absurd hok hn
    · rw [hq] at he
      cases ht
      have hn : Entry.hs ⟨e, q, p⟩ = some (flat pt) := by simp only [Entry.hs, hu, if_true]
      cases E1 with
      | nil =>
        simp only [List.nil_append, List.cons.injEq] at he
        rw [← he.1, hn] at hm
        cases hm
        rw [List.filterMap_nil, List.append_nil] at hc
        exact absurd hc hnc
      | cons x E1 =>
        simp only [List.cons_append, List.cons.injEq] at he
        rw [← he.1, List.filterMap_cons_some hn] at hc
        exact ih h2 g1 g2 he.2 (by simpa using hc)
  | @update hs f pt rec r g ops evs hcu hok _ ih =>
    obtain ⟨c1, ev, es, h1, h2, h3⟩ := run_cons h
    cases h3
    obtain ⟨g1, g2⟩ := step_good h1 gi go
    obtain ⟨c2, ev, es, h4, h5, h6⟩ := run_cons h2
    cases h6
    obtain ⟨g3, g4⟩ := step_good h4 g1 g2
    simp only [step, exec_bind_eq_ok] at h1
    obtain ⟨⟨d', r'⟩, q1, q2⟩ := h1
    cases q2
    rcases sealed_entry (e := e) (q := q) (evs := .outboundUpdated .ok :: evs) go q1 with
      ⟨hn, _⟩ | ⟨_, p, t, hq, ht, hu⟩
    · exact absurd hok hn
    · rw [hq] at he
      cases ht
      have hn : Entry.hs ⟨e, q, p⟩ = some (flat pt) := by simp only [Entry.hs, hu, if_true]
      cases E1 with
      | nil =>
        simp only [List.nil_append, List.cons.injEq] at he
        intro z hz
        rw [← he.2] at hz
        rw [← he.1]
        have := outEntries_from (evs := evs) (e := e + 1) (q := 0) hz
        unfold From at this
        simp only
        omega
      | cons x E1 =>
        simp only [List.cons_append, List.cons.injEq] at he
        rw [← he.1, List.filterMap_cons_some hn] at hc
        exact ih (e := e + 1) (q := 0) h5 g3 g4 he.2 (by simpa using hc)
  | @updating hs f pt rec r =>
    obtain ⟨c1, ev, es, h1, h2, h3⟩ := run_cons h
    cases h3
    simp only [step, exec_bind_eq_ok] at h1
    obtain ⟨⟨d', r'⟩, q1, q2⟩ := h1
    cases q2
    rcases sealed_entry (e := e) (q := q) (evs := []) go q1 with
      ⟨_, q', _, hq⟩ | ⟨_, p, t, hq, ht, hu⟩
    · rw [hq] at he
      cases E1 <;> cases he
    · rw [hq] at he
      cases E1 with
      | nil =>
        simp only [List.nil_append, List.cons.injEq] at he
        rw [← he.2]
        exact fun z hz => absurd hz List.not_mem_nil
      | cons x E1 =>
        simp only [List.cons_append, List.cons.injEq] at he
        cases E1 <;> cases he.2

/-- The entry carries an alert. -/
def Entry.IsAlert (y : Entry) : Prop := ∃ m, Spec.unpad y.inner = some (m, Spec.alertType)

theorem contentType_alert {rt} (h : Spec.contentType rt = some Spec.alertType) :
    rt = .alert := by
  cases rt <;> first | rfl | (simp [Spec.contentType] at h; try exact absurd h (by decide))

/-- No data is sealed after an alert. -/
theorem closesLast_data {L : Lib} {s ops c c' evs} {e q : Nat} (hcl : ClosesLast ops)
    (h : run L c ops = .ok (c', evs)) (gi : Good s c.inC) (go : Good s c.outC) {E1 E2 y}
    (he : outEntries e q evs = E1 ++ y :: E2) (hy : y.IsAlert) :
    E2.filterMap Entry.data = [] := by
  have nodata : ∀ {ops : List Op} {c c' evs} {e q : Nat}, Good s c.inC → Good s c.outC →
      (∀ f pt rec, .protect f .applicationData pt rec ∉ ops) → run L c ops = .ok (c', evs) →
      (outEntries e q evs).filterMap Entry.data = [] := by
    intro ops c c' evs e q gi go hn h
    rw [← sentData_eq e q h gi go]
    clear h
    induction ops generalizing evs with
    | nil => cases evs <;> rfl
    | cons op ops ih =>
      have ih := fun evs => ih (evs := evs) fun f pt rec hm => hn f pt rec (List.mem_cons_of_mem _ hm)
      cases evs with
      | nil => cases op <;> simp [sentData]
      | cons ev evs =>
        cases op with
        | protect f rt pt rec =>
          cases rt with
          | applicationData => exact absurd List.mem_cons_self (hn f pt rec)
          | _ => cases ev <;> simpa [sentData] using ih evs
        | _ => cases ev <;> simpa [sentData] using ih evs
  induction ops generalizing c evs e q E1 with
  | nil => cases h; cases E1 <;> cases he
  | cons op ops ih =>
    obtain ⟨c1, ev, es, h1, h2, h3⟩ := run_cons h
    subst h3
    obtain ⟨g1, g2⟩ := step_good h1 gi go
    cases op with
    | unprotect f hdr pl out =>
      simp only [step, exec_bind_eq_ok] at h1
      obtain ⟨⟨d', r'⟩, q1, q2⟩ := h1
      cases q2
      exact ih hcl h2 g1 g2 he
    | updateOutboundKey f =>
      simp only [step, exec_bind_eq_ok] at h1
      obtain ⟨⟨d', st⟩, q1, q2⟩ := h1
      cases q2
      cases st with
      | ok => exact ih hcl (e := e + 1) (q := 0) h2 g1 g2 he
      | _ => exact ih hcl h2 g1 g2 he
    | protect f rt pt rec =>
      simp only [step, exec_bind_eq_ok] at h1
      obtain ⟨⟨d', r⟩, q1, q2⟩ := h1
      cases q2
      by_cases ha : rt = .alert
      · subst ha
        have hnd := fun e q => nodata (e := e) (q := q) g1 g2 hcl h2
        rcases sealed_entry (e := e) (q := q) (evs := es) go q1 with
          ⟨_, q', _, hq⟩ | ⟨_, p, t, hq, ht, hu⟩
        · rw [hq] at he
          have := hnd e q'
          rw [he, List.filterMap_append, List.append_eq_nil_iff] at this
          have := this.2
          rw [List.filterMap_cons] at this
          split at this
          · exact this
          · cases this
        · rw [hq] at he
          have := hnd e (q + 1)
          cases E1 with
          | nil =>
            simp only [List.nil_append, List.cons.injEq] at he
            rw [← he.2]
            exact this
          | cons x E1 =>
            simp only [List.cons_append, List.cons.injEq] at he
            rw [he.2, List.filterMap_append, List.append_eq_nil_iff] at this
            have := this.2
            rw [List.filterMap_cons] at this
            split at this
            · exact this
            · cases this
      · have hcl' : ClosesLast ops := by cases rt <;> first | exact hcl | exact absurd rfl ha
        rcases sealed_entry (e := e) (q := q) (evs := es) go q1 with
          ⟨_, q', _, hq⟩ | ⟨_, p, t, hq, ht, hu⟩
        · rw [hq] at he
          exact ih hcl' h2 g1 g2 he
        · rw [hq] at he
          cases E1 with
          | nil =>
            simp only [List.nil_append, List.cons.injEq] at he
            obtain ⟨m, hm⟩ := hy
            rw [← he.1] at hm
            simp only [hu] at hm
            cases hm
            exact absurd (contentType_alert ht) ha
          | cons x E1 =>
            simp only [List.cons_append, List.cons.injEq] at he
            exact ih hcl' h2 g1 g2 he.2

/-! ### The receiver -/

theorem next_entry {ys xs rest : List Entry} {e q : Nat} {p : Bytes}
    (hys : ys.Pairwise Entry.Before) (hsp : ys = xs ++ rest)
    (hr : ∀ z ∈ rest, From e q z) (hx : ∀ x ∈ xs, x.Before ⟨e, q, p⟩) (hm : ⟨e, q, p⟩ ∈ ys) :
    ∃ rest', rest = ⟨e, q, p⟩ :: rest' ∧ ∀ z ∈ rest', From e (q + 1) z := by
  rw [hsp] at hm hys
  rcases List.mem_append.1 hm with hm | hm
  · exact absurd (hx _ hm) (Before_irrefl _)
  cases rest with
  | nil => exact absurd hm List.not_mem_nil
  | cons z rest =>
    obtain ⟨_, hys, _⟩ := List.pairwise_append.1 hys
    rw [List.pairwise_cons] at hys
    rcases List.mem_cons.1 hm with rfl | hm
    · refine ⟨rest, rfl, fun w hw => ?_⟩
      have := hys.1 w hw
      unfold Entry.Before at this
      unfold From
      simp only at this
      omega
    · have h1 := hys.1 _ hm
      have h2 := hr z List.mem_cons_self
      unfold Entry.Before at h1
      unfold From at h2
      simp only at h1
      omega

/-- A successful call has not failed in a key update. -/
theorem step_noFail {L : Lib} {c c' op r} (h : step L c op = .ok (c', .opened r))
    (hok : r.code = .ok) : r.rekey = none ∨ r.rekey = some .ok := by
  rcases step_cases h with ⟨_, _, h3⟩ | ⟨_, r', _, _, _, h2, _, h4, _⟩ |
    ⟨_, f, r', j, h', res, st, _, h2, h3, _, h5⟩
  · exact Or.inl (h3 r rfl)
  · cases h2; exact Or.inl h4
  · cases h2
    have hst := h3.1 hok
    rcases handleResult_cases h5 with ⟨_, _, _, _, h6⟩ | ⟨x, _, ⟨_, _, _, _, h6, _⟩ | ⟨_, _, _, h6⟩⟩
    · exact Or.inl h6
    · rw [h6] at hst; cases hst
    · rw [h6]; cases x.containsKeyUpdate <;> simp

/-- What the sender has sealed, as the receiver needs it: in order of position, with good
handshake messages, and a new key right after each key update. -/
structure Stream (ys : List Entry) : Prop where
  sorted : ys.Pairwise Entry.Before
  good : GoodMessages (ys.filterMap Entry.hs)
  gap : ∀ {E1 E2 y m}, ys = E1 ++ y :: E2 → y.hs = some m →
    CompletesUpdate (E1.filterMap Entry.hs) m → ∀ z ∈ E2, y.epoch < z.epoch

theorem GoodMessages.prefix {hs hs' : List Bytes} (h : GoodMessages hs) (hp : hs' <+: hs) :
    GoodMessages hs' := by
  refine ⟨?_, fun pre hpre => h.whole pre (hpre.trans hp)⟩
  obtain ⟨t, rfl⟩ := hp
  exact sane_of_prefix h.sane

/-- Without errors, the receiver has opened a prefix of what was sealed, and is at the position
of the next record. -/
theorem receiver_follows {L : Lib} {b : CreateArgs} {alg c evs} {ys : List Entry} {q0 : Nat}
    (hr : Reach L b c evs) (hy : Stream ys) (hq : ∀ y ∈ ys, From 0 q0 y)
    (hev : ∀ ev ∈ evs, EventOk L alg ev) (hok : ∀ r, .opened r ∈ evs → r.code = .ok)
    (hsub : ∀ y ∈ inEntries 0 q0 evs, y ∈ ys) :
    NoFailedUpdate evs ∧ ∃ rest, ys = inEntries 0 q0 evs ++ rest ∧
      ∀ z ∈ rest, From (recvPos 0 q0 evs).1 (recvPos 0 q0 evs).2 z := by
  obtain ⟨c0, ops, hc0, hrun⟩ := hr
  have := run_snoc_induct (L := L) (c0 := c0)
    (P := fun c evs => Reach L b c evs ∧ ((∀ ev ∈ evs, EventOk L alg ev) →
      (∀ r, .opened r ∈ evs → r.code = .ok) → (∀ y ∈ inEntries 0 q0 evs, y ∈ ys) →
      NoFailedUpdate evs ∧ ∃ rest, ys = inEntries 0 q0 evs ++ rest ∧
        ∀ z ∈ rest, From (recvPos 0 q0 evs).1 (recvPos 0 q0 evs).2 z))
    ⟨⟨c0, [], hc0, rfl⟩, fun _ _ _ => ⟨fun _ h => absurd h List.not_mem_nil, ys, rfl, hq⟩⟩
    (fun c evs op c' ev ⟨hreach, ih⟩ hst => ⟨hreach.step hst, fun hev hok hsub => ?_⟩) hrun
  · exact this.2 hev hok hsub
  have hev' : ∀ ev ∈ evs, EventOk L alg ev := fun e h => hev e (List.mem_append_left _ h)
  rw [inEntries_append] at hsub
  obtain ⟨hnf, rest, hsp, hrest⟩ := ih hev' (fun r h => hok r (List.mem_append_left _ h))
    (fun y h => hsub y (List.mem_append_left _ h))
  rw [inEntries_append, inPos_append]
  have hpw := inEntries_pairwise (evs ++ [ev]) 0 q0
  rw [inEntries_append] at hpw
  generalize hpos : recvPos 0 q0 evs = pos at *
  obtain ⟨e, q⟩ := pos
  simp only at hrest hsub hpw ⊢
  cases ev with
  | sealed r =>
    refine ⟨fun r' h' => ?_, rest, by simpa [inEntries] using hsp, hrest⟩
    rcases List.mem_append.1 h' with h' | h'
    · exact hnf r' h'
    · exact absurd (List.mem_singleton.1 h') (by simp)
  | outboundUpdated st =>
    refine ⟨fun r' h' => ?_, rest, by simpa [inEntries] using hsp, hrest⟩
    rcases List.mem_append.1 h' with h' | h'
    · exact hnf r' h'
    · exact absurd (List.mem_singleton.1 h') (by simp)
  | opened r =>
    have ho : OpenOk L alg r := hev (.opened r) (List.mem_append_right _ List.mem_cons_self)
    have hc := hok r (by simp)
    obtain ⟨p, content, t, hin, hu, _⟩ := ho.2 hc
    obtain ⟨call, hcall, _⟩ := ho.1 p hin
    have hrk := step_noFail hst hc
    have hnf' : NoFailedUpdate (evs ++ [.opened r]) := by
      intro r' h'
      rcases List.mem_append.1 h' with h' | h'
      · exact hnf r' h'
      · cases List.mem_singleton.1 h'; exact hrk
    have hent : inEntries e q [.opened r] = [⟨e, q, p⟩] := by
      simp only [inEntries, hcall, hin, ite_self]
    rw [hent] at hsub hpw ⊢
    obtain ⟨rest', hrest', hafter⟩ := next_entry hy.sorted hsp hrest
      (fun x hx => (List.pairwise_append.1 hpw).2.2 x hx _ List.mem_cons_self)
      (hsub _ (by simp))
    subst hrest'
    refine ⟨hnf', rest', by rw [hsp]; simp, ?_⟩
    by_cases hk : r.rekey = some .ok
    · simp only [recvPos, if_pos hk]
      -- the record completes a key update
      have hhs : handshakes evs = (inEntries 0 q0 evs).filterMap Entry.hs :=
        handshakes_entries 0 q0 hev'
      have hhs' : handshakes (evs ++ [.opened r]) =
          (inEntries 0 q0 evs ++ [(⟨e, q, p⟩ : Entry)]).filterMap Entry.hs := by
        rw [handshakes_entries (L := L) (alg := alg) 0 q0 hev, inEntries_append, hpos, hent]
      have hpre : handshakes (evs ++ [.opened r]) <+: ys.filterMap Entry.hs := by
        rw [hhs', hsp]
        exact ⟨rest'.filterMap Entry.hs, by
          rw [← List.filterMap_append, List.append_assoc, List.singleton_append]⟩
      have hpre0 : handshakes evs <+: ys.filterMap Entry.hs := by
        rw [hhs, hsp]
        exact ⟨((⟨e, q, p⟩ : Entry) :: rest').filterMap Entry.hs, by rw [List.filterMap_append]⟩
      have g1 := GoodMessages.prefix hy.good hpre
      have g0 := GoodMessages.prefix hy.good hpre0
      have r1 := (hreach.step hst).rekeys g1.sane hnf' g1.whole
      have r0 := hreach.rekeys g0.sane hnf g0.whole
      rw [rekeys_opened, if_pos hk, r0] at r1
      have hm : Entry.hs ⟨e, q, p⟩ = some content := by
        simp only [Entry.hs, hu]
        split
        · rfl
        · next ht =>
          exfalso
          rw [hhs', List.filterMap_append, ← hhs] at r1
          simp only [Entry.hs, hu, if_neg ht, List.filterMap_cons, List.filterMap_nil,
            List.append_nil] at r1
          omega
      have hcu : CompletesUpdate ((inEntries 0 q0 evs).filterMap Entry.hs) content := by
        unfold CompletesUpdate
        rw [hhs', List.filterMap_append, hhs] at r1
        rw [List.filterMap_cons_some hm, List.filterMap_nil] at r1
        omega
      intro z hz
      have := hy.gap hsp hm hcu z hz
      unfold From
      simp only at this
      omega
    · simp only [recvPos, if_neg hk, hcall]
      exact hafter

/-- Without errors, what is delivered is the data in the records opened. -/
theorem delivered_flatten {L : Lib} {alg} {evs : List Event} (e q : Nat)
    (hok : ∀ ev ∈ evs, EventOk L alg ev) (hs : ∀ r, .opened r ∈ evs → r.code = .ok) :
    (deliveredData evs).flatten = ((inEntries e q evs).filterMap Entry.data).flatten := by
  induction evs generalizing e q with
  | nil => rfl
  | cons ev evs ih =>
    have ih := fun e q => ih e q (fun ev h => hok ev (List.mem_cons_of_mem _ h))
      (fun r h => hs r (List.mem_cons_of_mem _ h))
    cases ev with
    | sealed r => exact ih _ _
    | outboundUpdated st => exact ih _ _
    | opened r =>
      have ho : OpenOk L alg r := hok _ List.mem_cons_self
      have hc := hs r List.mem_cons_self
      obtain ⟨p, content, t, hin, hu, hdd⟩ := ho.2 hc
      obtain ⟨call, hcall, _⟩ := ho.1 p hin
      have hrest : (deliveredData evs).flatten =
          ((if r.rekey = some .ok then inEntries (e + 1) 0 evs
            else inEntries e (q + 1) evs).filterMap Entry.data).flatten := by
        split <;> exact ih _ _
      simp only [inEntries, hcall, hin, deliveredData, if_pos hc, List.flatten_cons]
      rcases hdd with ⟨rfl, hrk, hdd⟩ | ⟨rfl, hw⟩
      · rw [List.filterMap_cons_some (b := content) (by simp [Entry.data, hu]),
          List.flatten_cons, hdd, hrest]
      · rw [List.filterMap_cons_none (by simp [Entry.data, hu, Spec.handshakeType, Spec.appDataType]),
          hw, List.take_zero, List.nil_append, hrest]

end S2A.Record
