import Verif.Lemmas.Reach
import Verif.Lemmas.HsCalls
import Verif.Spec.Adversary
namespace S2A.Record
open HalfConn (AeadCall Good At bump blocked exec_bind_eq_ok)
open Spec (seals opens Unforged KeysDistinct sentData deliveredData epochs)

/-! ### Strictly increasing lists -/

theorem sublist_of_subset {α : Type} {R : α → α → Prop} (irrefl : ∀ x, ¬ R x x)
    (trans : ∀ x y z, R x y → R y z → R x z) {xs ys : List α} (hx : xs.Pairwise R)
    (hy : ys.Pairwise R) (h : ∀ x ∈ xs, x ∈ ys) : xs.Sublist ys := by
  induction ys generalizing xs with
  | nil =>
    cases xs with
    | nil => exact List.Sublist.refl _
    | cons x xs => exact absurd (h x List.mem_cons_self) List.not_mem_nil
  | cons y ys ih =>
    cases xs with
    | nil => exact List.nil_sublist _
    | cons x xs =>
      rw [List.pairwise_cons] at hx hy
      rcases List.mem_cons.1 (h x List.mem_cons_self) with e | hm
      · subst e
        refine List.Sublist.cons_cons _ (ih hx.2 hy.2 fun z hz => ?_)
        rcases List.mem_cons.1 (h z (List.mem_cons_of_mem _ hz)) with e | hm
        · subst e; exact absurd (hx.1 _ hz) (irrefl _)
        · exact hm
      · refine List.Sublist.cons _ (ih (List.pairwise_cons.2 hx) hy.2 fun z hz => ?_)
        rcases List.mem_cons.1 (h z hz) with e | hm'
        · subst e
          rcases List.mem_cons.1 hz with e | hz
          · subst e; exact hm
          · exact absurd (trans _ _ _ (hx.1 _ hz) (hy.1 _ hm)) (irrefl _)
        · exact hm'

/-- The same, if the elements of `xs` follow each other without gaps. -/
theorem prefix_of_subset {α : Type} (rank : α → Nat) (n : Nat) {xs ys : List α}
    (hx : ∀ (i : Nat) (h : i < xs.length), rank xs[i] = n + i)
    (hy : ys.Pairwise fun a b => rank a < rank b) (hn : ∀ y ∈ ys, n ≤ rank y)
    (h : ∀ x ∈ xs, x ∈ ys) : xs <+: ys := by
  induction xs generalizing ys n with
  | nil => exact List.nil_prefix
  | cons x xs ih =>
    have h0 : rank x = n := hx 0 (Nat.succ_pos _)
    cases ys with
    | nil => exact absurd (h x List.mem_cons_self) List.not_mem_nil
    | cons y ys =>
      rw [List.pairwise_cons] at hy
      have e : x = y := by
        rcases List.mem_cons.1 (h x List.mem_cons_self) with e | hm
        · exact e
        · have h1 := hy.1 _ hm
          have h2 := hn y List.mem_cons_self
          omega
      subst e
      refine (List.prefix_cons_inj _).2 (ih (n + 1) (fun i hi => ?_) hy.2 (fun z hz => ?_)
        (fun z hz => ?_))
      · have := hx (i + 1) (by simpa using hi)
        rw [List.getElem_cons_succ] at this
        omega
      · have := hy.1 _ hz; omega
      · rcases List.mem_cons.1 (h z (List.mem_cons_of_mem _ hz)) with e | hm
        · obtain ⟨i, hi, hz'⟩ := List.mem_iff_getElem.1 hz
          have := hx (i + 1) (by simpa using hi)
          rw [List.getElem_cons_succ, hz', e] at this
          omega
        · exact hm

/-! ### What one call does, whatever its position -/

/-- A sealed record. -/
def SealOk (L : Lib) (alg : Alg) (r : Result) : Prop :=
  r.rekey = none ∧ (r.code = .ok → ∃ c, r.call = some c ∧
    (r.out.bytes.take r.written).drop 5 = Spec.aeadSeal L alg c.key c.nonce c.aad c.data)

/-- An opened record. -/
def OpenOk (L : Lib) (alg : Alg) (r : Result) : Prop :=
  (∀ p, r.inner = some p → ∃ c, r.call = some c ∧
    Spec.aeadOpen L alg c.key c.nonce c.aad c.data = some p) ∧
  (r.code = .ok → ∃ p content t, r.inner = some p ∧ Spec.unpad p = some (content, t) ∧
    ((t = Spec.appDataType ∧ r.rekey = none ∧ r.out.bytes.take r.written = content) ∨
     (t = Spec.handshakeType ∧ r.written = 0)))

def EventOk (L : Lib) (alg : Alg) : Event → Prop
  | .sealed r => SealOk L alg r
  | .opened r => OpenOk L alg r
  | .outboundUpdated _ => True

theorem protect_ok {L : Lib} {f c rt pt rec c' r s} (hg : Good s c.outC)
    (h : protect L f c rt pt rec = .ok (c', r)) :
    SealOk L s.alg r ∧ (r.code = .ok → ∃ t call, Spec.contentType rt = some t ∧
      r.call = some call ∧ call.data = Spec.innerPlaintext (flat pt) t 0) := by
  cases rec with
  | null n =>
    unfold protect at h
    simp only at h
    split at h
    · cases h; simp [SealOk]
    · split at h
      · cases h; simp [SealOk]
      · cases h
  | buf rb =>
    obtain ⟨c1, r1, h1, h2⟩ := protect_spec L f c rt pt rb hg.nonce
    rw [h] at h1
    cases h1
    rcases h2 with ⟨_, _, rfl⟩ | ⟨_, _, ⟨_, _, rfl⟩ | ⟨t, ht, ⟨_, _, rfl⟩ | ⟨_, _, h2⟩⟩⟩
    · simp [SealOk]
    · simp [SealOk]
    · simp [SealOk]
    · simp only at h2
      obtain ⟨h3, h4, ⟨h5, _⟩ | ⟨h5, hwf, h6, h7⟩⟩ := h2
      · exact ⟨⟨h4, fun hc => absurd hc h5⟩, fun hc => absurd hc h5⟩
      · refine ⟨⟨h4, fun _ => ⟨_, h3, ?_⟩⟩, fun _ => ⟨t, _, ht, h3, rfl⟩⟩
        have hl := hwf.totalLen_eq
        rw [h7, h6, hg.alg]
        have hil : (Spec.innerPlaintext (flat pt) t 0).length = totalLen pt + 1 := by
          simp [Spec.innerPlaintext, hl]
        simp only [Iovec.bytes]
        rw [List.take_left' (by
          simp [Spec.sealRecord, Aead.aeadSeal_length, hil]; omega)]
        simp only [Spec.sealRecord, hil]
        rw [List.drop_left' (by simp)]
        rfl

theorem unprotect_ok {L : Lib} {f c header payload out c' r s} (hg : Good s c.inC)
    (hp : AllWF payload) (ho : out.WF)
    (h : unprotect L f c header payload out = .ok (c', r)) : OpenOk L s.alg r := by
  rcases unprotect_spec L f c header payload out hg.nonce hp ho with
    ⟨_, h2⟩ | ⟨_, ⟨_, h2⟩ | ⟨_, h2⟩ | ⟨_, _, ⟨_, h2⟩ | ⟨_, ⟨_, h2⟩ | ⟨_, h2⟩⟩⟩⟩
  · rw [h] at h2; cases h2; simp [OpenOk]
  · rw [h] at h2; cases h2; simp [OpenOk]
  · rw [h] at h2; cases h2; simp [OpenOk]
  · rw [h] at h2; cases h2; simp [OpenOk]
  · rw [h] at h2; cases h2; simp [OpenOk]
  · simp only at h2
    rcases h2 with ⟨h2, _⟩ | ⟨p, ob, ho1, ho2, ho3, ho4, ho5, h1⟩
    · rw [h] at h2; cases h2; simp [OpenOk]
    rw [h] at h1
    have hin := dispatch_inner h1.symm
    have hcall := (dispatch_frame h1.symm).2.1
    refine ⟨fun q hq => ⟨_, hcall, ?_⟩, fun hok => ?_⟩
    · rw [hin] at hq
      cases hq
      rw [← hg.alg]
      exact ho1
    · rcases unpad_cases p with ⟨hu, _⟩ | ⟨content, t, k, ht, hpe, hu⟩
      · rw [dispatch_none _ _ _ _ _ _ hu] at h1; cases h1; cases hok
      refine ⟨p, content, t, hin, hu, ?_⟩
      obtain ⟨_, hcl, hct, _⟩ := unpad_length hu
      by_cases t1 : t = Spec.alertType
      · rw [t1] at hu
        rw [dispatch_alert _ _ _ _ _ _ hu] at h1
        split at h1
        · cases h1; cases hok
        · split at h1 <;> (cases h1; cases hok)
      by_cases t2 : t = Spec.handshakeType
      · right
        rw [t2] at hu
        rw [dispatch_handshake _ _ _ _ _ _ hu] at h1
        symm at h1
        simp only [exec_bind_eq_ok] at h1
        obtain ⟨x, _, y, _, h2⟩ := h1
        cases h2
        exact ⟨t2, rfl⟩
      by_cases t3 : t = Spec.appDataType
      · left
        rw [t3] at hu
        rw [dispatch_appData _ _ _ _ _ _ hu] at h1
        symm at h1
        have hfin : r.written = content.length ∧ r.out = .buf (p ++ ob.drop p.length) ∧
            r.rekey = none := by
          split at h1
          · cases h1; cases hok
          · split at h1
            · simp only [exec_bind_eq_ok] at h1
              obtain ⟨x, _, h2⟩ := h1
              cases h2
              exact ⟨rfl, rfl, rfl⟩
            · cases h1; exact ⟨rfl, rfl, rfl⟩
        refine ⟨t3, hfin.2.2, ?_⟩
        rw [hfin.2.1, hfin.1]
        simp only [Iovec.bytes]
        rw [List.take_append_of_le_length (by omega), hct]
      · rw [dispatch_other _ _ _ _ _ _ hu t1 t2 t3] at h1
        cases h1; cases hok

theorem step_good {L : Lib} {c op c' ev s} (h : step L c op = .ok (c', ev)) (hi : Good s c.inC)
    (ho : Good s c.outC) : Good s c'.inC ∧ Good s c'.outC := by
  obtain ⟨⟨_, _, a, _⟩, ⟨_, _, b, _⟩⟩ := step_project h
  exact ⟨HalfConn.run_good hi b, HalfConn.run_good ho a⟩

theorem step_ok {L : Lib} {c op c' ev s} (h : step L c op = .ok (c', ev)) (hi : Good s c.inC)
    (ho : Good s c.outC) (hv : Spec.ValidArgs op) : EventOk L s.alg ev := by
  cases op with
  | protect f rt pt rec =>
    simp only [step, exec_bind_eq_ok] at h
    obtain ⟨⟨d', r'⟩, q1, q2⟩ := h
    cases q2
    exact (protect_ok ho q1).1
  | unprotect f hdr pl out =>
    simp only [step, exec_bind_eq_ok] at h
    obtain ⟨⟨d', r'⟩, q1, q2⟩ := h
    cases q2
    exact unprotect_ok hi hv.1 hv.2 q1
  | updateOutboundKey f =>
    simp only [step, exec_bind_eq_ok] at h
    obtain ⟨⟨d', r'⟩, q1, q2⟩ := h
    cases q2
    trivial

theorem run_ok {L : Lib} {s ops c c' evs} (h : run L c ops = .ok (c', evs)) (hi : Good s c.inC)
    (ho : Good s c.outC) (hv : ∀ op ∈ ops, Spec.ValidArgs op) :
    ∀ ev ∈ evs, EventOk L s.alg ev := by
  induction ops generalizing c evs with
  | nil => cases h; exact fun _ h => absurd h List.not_mem_nil
  | cons op ops ih =>
    obtain ⟨c1, ev, es, h1, h2, h3⟩ := run_cons h
    subst h3
    obtain ⟨g1, g2⟩ := step_good h1 hi ho
    intro e he
    rcases List.mem_cons.1 he with rfl | he
    · exact step_ok h1 hi ho (hv _ List.mem_cons_self)
    · exact ih h2 g1 g2 (fun o ho => hv o (List.mem_cons_of_mem _ ho)) e he

/-! ### Positions -/

/-- A record at a position: number of key updates before it, sequence number, content. -/
structure Entry where
  epoch : Nat
  seq : Nat
  inner : Bytes

/-- Earlier position. -/
def Entry.Before (x y : Entry) : Prop :=
  x.epoch < y.epoch ∨ (x.epoch = y.epoch ∧ x.seq < y.seq)

/-- The records sealed. -/
def outEntries : (e q : Nat) → List Event → List Entry
  | _, _, [] => []
  | e, q, .sealed r :: evs =>
    match r.call with
    | some c => if r.code = .ok then ⟨e, q, c.data⟩ :: outEntries e (q + 1) evs
                else outEntries e (q + 1) evs
    | none => outEntries e q evs
  | e, _, .outboundUpdated .ok :: evs => outEntries (e + 1) 0 evs
  | e, q, _ :: evs => outEntries e q evs

/-- The records opened. -/
def inEntries : (e q : Nat) → List Event → List Entry
  | _, _, [] => []
  | e, q, .opened r :: evs =>
    match r.call with
    | some _ =>
      let rest := if r.rekey = some .ok then inEntries (e + 1) 0 evs else inEntries e (q + 1) evs
      match r.inner with
      | some p => ⟨e, q, p⟩ :: rest
      | none => rest
    | none => if r.rekey = some .ok then inEntries (e + 1) 0 evs else inEntries e q evs
  | e, q, _ :: evs => inEntries e q evs

/-- At or after a position. -/
def From (e q : Nat) (y : Entry) : Prop := e < y.epoch ∨ (e = y.epoch ∧ q ≤ y.seq)

theorem From.mono {e q e' q' y} (h : From e' q' y) (h1 : e < e' ∨ (e = e' ∧ q ≤ q')) :
    From e q y := by
  unfold From at *; omega

theorem outEntries_from {evs : List Event} {e q y} (h : y ∈ outEntries e q evs) :
    From e q y := by
  induction evs generalizing e q with
  | nil => exact absurd h List.not_mem_nil
  | cons ev evs ih =>
    cases ev with
    | opened r => exact ih h
    | outboundUpdated st =>
      cases st with
      | ok => exact (ih (e := e + 1) (q := 0) h).mono (by omega)
      | _ => exact ih h
    | sealed r =>
      simp only [outEntries] at h
      split at h
      · split at h
        · rcases List.mem_cons.1 h with rfl | h
          · simp [From]
          · exact (ih h).mono (by omega)
        · exact (ih h).mono (by omega)
      · exact ih h

theorem outEntries_pairwise (evs : List Event) (e q : Nat) :
    (outEntries e q evs).Pairwise Entry.Before := by
  induction evs generalizing e q with
  | nil => exact List.Pairwise.nil
  | cons ev evs ih =>
    cases ev with
    | opened r => exact ih _ _
    | outboundUpdated st =>
      cases st with
      | ok => exact ih _ _
      | _ => exact ih _ _
    | sealed r =>
      simp only [outEntries]
      split
      · split
        · refine List.pairwise_cons.2 ⟨fun y hy => ?_, ih _ _⟩
          have := outEntries_from hy
          unfold From at this
          unfold Entry.Before
          simp only
          omega
        · exact ih _ _
      · exact ih _ _

theorem inEntries_from {evs : List Event} {e q y} (h : y ∈ inEntries e q evs) :
    From e q y := by
  induction evs generalizing e q with
  | nil => exact absurd h List.not_mem_nil
  | cons ev evs ih =>
    cases ev with
    | sealed r => exact ih h
    | outboundUpdated st => exact ih h
    | opened r =>
      have hrest : ∀ k, y ∈ (if r.rekey = some .ok then inEntries (e + 1) 0 evs
          else inEntries e (q + k) evs) → From e (q + k) y := by
        intro k hm
        split at hm
        · exact (ih hm).mono (by omega)
        · exact ih hm
      simp only [inEntries] at h
      split at h
      · split at h
        · rcases List.mem_cons.1 h with rfl | h
          · simp [From]
          · exact (hrest 1 h).mono (by omega)
        · exact (hrest 1 h).mono (by omega)
      · exact hrest 0 h

theorem inEntries_pairwise (evs : List Event) (e q : Nat) :
    (inEntries e q evs).Pairwise Entry.Before := by
  induction evs generalizing e q with
  | nil => exact List.Pairwise.nil
  | cons ev evs ih =>
    cases ev with
    | sealed r => exact ih _ _
    | outboundUpdated st => exact ih _ _
    | opened r =>
      have hrest : ∀ k, (if r.rekey = some .ok then inEntries (e + 1) 0 evs
          else inEntries e (q + k) evs).Pairwise Entry.Before := by
        intro k
        split <;> exact ih _ _
      simp only [inEntries]
      split
      · split
        · refine List.pairwise_cons.2 ⟨fun y hy => ?_, hrest 1⟩
          unfold Entry.Before
          split at hy
          · have := inEntries_from hy
            unfold From at this
            simp only
            omega
          · have := inEntries_from hy
            unfold From at this
            simp only
            omega
        · exact hrest 1
      · exact hrest 0

/-! ### Calls at positions -/

/-- The AEAD call was made with the key and the nonce of a position. -/
def KeyedAt (L : Lib) (s : Spec.Suite) (secret : Bytes) (c : AeadCall) (y : Entry) : Prop :=
  c.key = Spec.trafficKey L s.hash (Spec.secretAfter L s.hash secret y.epoch) s.keyLen ∧
  c.nonce = Spec.recordNonce
    (Spec.trafficIv L s.hash (Spec.secretAfter L s.hash secret y.epoch)) y.seq ∧
  y.seq < 2 ^ 64

theorem outTrace_sealed (r : Result) (evs : List Event) :
    outTrace (.sealed r :: evs) = r.uses ++ outTrace evs := rfl

theorem seals_entry {L : Lib} {s secret} {evs : List Event} {e q : Nat}
    (hf : Spec.Follows L s secret e q (outTrace evs)) (hok : ∀ ev ∈ evs, EventOk L s.alg ev)
    {x} (hx : x ∈ seals evs) :
    ∃ y ∈ outEntries e q evs, KeyedAt L s secret x.call y ∧
      y.epoch ≤ e + epochs (outTrace evs) ∧ y.inner = x.call.data ∧
      x.text = Spec.aeadSeal L s.alg x.call.key x.call.nonce x.call.aad x.call.data := by
  induction evs generalizing e q with
  | nil => exact absurd hx List.not_mem_nil
  | cons ev evs ih =>
    have hok' := fun ev h => hok ev (List.mem_cons_of_mem _ h)
    cases ev with
    | opened r => exact ih hf hok' hx
    | outboundUpdated st =>
      cases st with
      | ok =>
        obtain ⟨y, h1, h2, h3, h4⟩ := ih (e := e + 1) (q := 0) hf hok' hx
        exact ⟨y, h1, h2, by simp only [outTrace, epochs]; omega, h4⟩
      | _ => exact ih hf hok' hx
    | sealed r =>
      obtain ⟨hr1, hr2⟩ : SealOk L s.alg r := hok _ List.mem_cons_self
      simp only [outTrace, Result.uses, hr1, List.append_nil] at hf ⊢
      simp only [seals] at hx
      simp only [outEntries]
      cases hc : r.call with
      | none =>
        rw [hc] at hx hf
        exact ih hf hok' hx
      | some c =>
        rw [hc] at hx hf
        obtain ⟨f1, f2, f3, f4⟩ := hf
        simp only [List.cons_append, List.nil_append, epochs]
        simp only at hx
        by_cases hco : r.code = .ok
        · rw [if_pos hco] at hx ⊢
          rcases List.mem_cons.1 hx with rfl | hx
          · obtain ⟨c', hc', ht⟩ := hr2 hco
            rw [hc] at hc'
            cases hc'
            exact ⟨_, List.mem_cons_self, ⟨f1, f2, f3⟩, by simp, rfl, ht⟩
          · obtain ⟨y, h1, h2⟩ := ih f4 hok' hx
            exact ⟨y, List.mem_cons_of_mem _ h1, h2⟩
        · rw [if_neg hco] at hx ⊢
          exact ih f4 hok' hx

theorem inEntries_opens {L : Lib} {s secret} {evs : List Event} {e q : Nat}
    (hf : Spec.Follows L s secret e q (inTrace evs)) (hok : ∀ ev ∈ evs, EventOk L s.alg ev)
    {y} (hy : y ∈ inEntries e q evs) :
    ∃ c ∈ opens evs, KeyedAt L s secret c y ∧ y.epoch ≤ e + epochs (inTrace evs) ∧
      Spec.aeadOpen L s.alg c.key c.nonce c.aad c.data = some y.inner := by
  induction evs generalizing e q with
  | nil => exact absurd hy List.not_mem_nil
  | cons ev evs ih =>
    have hok' := fun ev h => hok ev (List.mem_cons_of_mem _ h)
    cases ev with
    | sealed r => exact ih hf hok' hy
    | outboundUpdated st => exact ih hf hok' hy
    | opened r =>
      obtain ⟨ho, _⟩ : OpenOk L s.alg r := hok _ List.mem_cons_self
      have hrest : ∀ k, Spec.Follows L s secret e (q + k)
            ((match r.rekey with | some .ok => [Spec.KeyUse.rekey] | _ => []) ++ inTrace evs) →
          y ∈ (if r.rekey = some .ok then inEntries (e + 1) 0 evs
            else inEntries e (q + k) evs) →
          ∃ c ∈ opens evs, KeyedAt L s secret c y ∧
            y.epoch ≤ e + epochs
              ((match r.rekey with | some .ok => [Spec.KeyUse.rekey] | _ => []) ++ inTrace evs) ∧
            Spec.aeadOpen L s.alg c.key c.nonce c.aad c.data = some y.inner := by
        intro k hf hm
        by_cases hrk : r.rekey = some .ok
        · rw [if_pos hrk] at hm
          simp only [hrk, List.cons_append, List.nil_append] at hf ⊢
          obtain ⟨c, h1, h2, h3, h4⟩ := ih (e := e + 1) (q := 0) hf hok' hm
          exact ⟨c, h1, h2, by simp only [epochs]; omega, h4⟩
        · rw [if_neg hrk] at hm
          have he : (match r.rekey with
              | some .ok => [Spec.KeyUse.rekey] | _ => []) = ([] : List Spec.KeyUse) := by
            split
            · next h => exact absurd h hrk
            · rfl
          rw [he] at hf ⊢
          exact ih hf hok' hm
      have hsub : ∀ c ∈ opens evs, c ∈ opens (.opened r :: evs) := by
        intro c hc
        simp only [opens]
        split
        · split
          · exact List.mem_cons_of_mem _ hc
          · exact hc
        · exact hc
      simp only [inTrace, Result.uses, List.append_assoc] at hf ⊢
      simp only [inEntries] at hy
      cases hc : r.call with
      | none =>
        rw [hc] at hy hf
        obtain ⟨c, h1, h2⟩ := hrest 0 hf hy
        exact ⟨c, hsub c h1, h2⟩
      | some c =>
        rw [hc] at hy hf
        obtain ⟨f1, f2, f3, f4⟩ := hf
        simp only [List.cons_append, List.nil_append, epochs]
        cases hin : r.inner with
        | none =>
          simp only [hin] at hy
          obtain ⟨c, h1, h2⟩ := hrest 1 f4 hy
          exact ⟨c, hsub c h1, h2⟩
        | some p =>
          simp only [hin] at hy
          rcases List.mem_cons.1 hy with rfl | hy
          · obtain ⟨c', hc', ht⟩ := ho p hin
            rw [hc] at hc'
            cases hc'
            refine ⟨c, ?_, ⟨f1, f2, f3⟩, by simp, ht⟩
            simp [opens, hc, hin]
          · obtain ⟨c, h1, h2⟩ := hrest 1 f4 hy
            exact ⟨c, hsub c h1, h2⟩

/-- Without forgeries, what was opened at a position was sealed at this position. -/
theorem opened_was_sealed {L : Lib} {s : Spec.Suite} {a b : CreateArgs} {evsA evsB : List Event}
    (hb : Spec.suite b.ciphersuite = some s) (hm : Spec.Mirrored a b)
    (fa : Spec.Follows L s a.outSecret 0 a.outSequence.toNat (outTrace evsA))
    (fb : Spec.Follows L s b.outSecret 0 b.outSequence.toNat (outTrace evsB))
    (fi : Spec.Follows L s b.inSecret 0 b.inSequence.toNat (inTrace evsB))
    (oa : ∀ ev ∈ evsA, EventOk L s.alg ev) (ob : ∀ ev ∈ evsB, EventOk L s.alg ev)
    (hu : Unforged evsA evsB) (hk : KeysDistinct L s b evsA evsB)
    {y} (hy : y ∈ inEntries 0 b.inSequence.toNat evsB) :
    y ∈ outEntries 0 b.inSequence.toNat evsA := by
  obtain ⟨c, h1, ⟨k1, k2, k3⟩, h3, h4⟩ := inEntries_opens fi ob hy
  obtain ⟨x, hx, e1, e2, e3, e4⟩ := hu c h1
  rcases List.mem_append.1 hx with hx | hx
  · rw [hm.secret, hm.seq] at fa
    obtain ⟨z, z1, ⟨l1, l2, l3⟩, z3, z4, z5⟩ := seals_entry fa oa hx
    have he : z.epoch = y.epoch := by
      refine hk.epoch _ (by omega) _ (by omega) ?_
      rw [← l1, ← k1, e1]
    have hq : z.seq = y.seq := by
      rw [he] at l2
      refine HalfConn.recordNonce_inj _ _ _ ?_ l3 k3 (by rw [← l2, ← k2, e2])
      exact HalfConn.expandLabel_length _ _ _ _ _
        (ciphersuiteToHash_suite _ _ hb).2.2.2.2.1
    have hi : z.inner = y.inner := by
      rw [e4, e1, e2, e3] at z5
      rw [z5, Aead.aeadOpen_aeadSeal] at h4
      rw [z4]
      exact Option.some.inj h4
    cases z; cases y
    simp only at he hq hi
    subst he hq hi
    exact z1
  · obtain ⟨z, z1, ⟨l1, l2, l3⟩, z3, z4, z5⟩ := seals_entry fb ob hx
    exact absurd (by rw [← l1, ← k1, e1]) (hk.direction z.epoch (by omega) y.epoch (by omega))

/-! ### Application data -/

/-- The application data in a record, if this is what it carries. -/
def Entry.data (y : Entry) : Option Bytes :=
  match Spec.unpad y.inner with
  | some (m, t) => if t = Spec.appDataType then some m else none
  | none => none

theorem contentType_ne_zero {rt t} (h : Spec.contentType rt = some t) : t ≠ 0 := by
  cases rt <;> simp [Spec.contentType] at h <;> subst h <;> decide

theorem contentType_appData {rt} (h : Spec.contentType rt = some Spec.appDataType) :
    rt = .applicationData := by
  cases rt <;> first | rfl | (simp [Spec.contentType] at h; try exact absurd h (by decide))

theorem sentData_eq {L : Lib} {s ops c c' evs} (e q : Nat) (h : run L c ops = .ok (c', evs))
    (hi : Good s c.inC) (ho : Good s c.outC) :
    sentData ops evs = (outEntries e q evs).filterMap Entry.data := by
  induction ops generalizing c evs e q with
  | nil => cases h; rfl
  | cons op ops ih =>
    obtain ⟨c1, ev, es, h1, h2, h3⟩ := run_cons h
    subst h3
    obtain ⟨g1, g2⟩ := step_good h1 hi ho
    have ih := fun e q => ih e q h2 g1 g2
    cases op with
    | unprotect f hdr pl out =>
      simp only [step, exec_bind_eq_ok] at h1
      obtain ⟨⟨d', r'⟩, q1, q2⟩ := h1
      cases q2
      exact ih _ _
    | updateOutboundKey f =>
      simp only [step, exec_bind_eq_ok] at h1
      obtain ⟨⟨d', st⟩, q1, q2⟩ := h1
      cases q2
      cases st <;> exact ih _ _
    | protect f rt pt rec =>
      simp only [step, exec_bind_eq_ok] at h1
      obtain ⟨⟨d', r⟩, q1, q2⟩ := h1
      cases q2
      obtain ⟨_, hr⟩ := protect_ok ho q1
      have hs : sentData (.protect f rt pt rec :: ops) (.sealed r :: es) =
          if r.code = .ok ∧ rt = .applicationData then flat pt :: sentData ops es
          else sentData ops es := by
        cases rt <;> by_cases hc : r.code = .ok <;> simp [sentData, hc]
      rw [hs]
      by_cases hc : r.code = .ok
      · obtain ⟨t, call, ht, hcall, hd⟩ := hr hc
        have hu := unpad_inner (flat pt) t 0 (contentType_ne_zero ht)
        rw [← hd] at hu
        simp only [outEntries, hcall, hc, if_true, true_and]
        by_cases hrt : rt = .applicationData
        · subst hrt
          cases ht
          rw [if_pos rfl, List.filterMap_cons_some (b := flat pt), ih]
          simp only [Entry.data, hu, if_true]
        · have : t ≠ Spec.appDataType := fun h => hrt (contentType_appData (by rw [ht, h]))
          rw [if_neg hrt, List.filterMap_cons_none, ih]
          simp only [Entry.data, hu, if_neg this]
      · rw [if_neg (by simp [hc])]
        simp only [outEntries, if_neg hc]
        split <;> exact ih _ _

theorem delivered_sublist {L : Lib} {alg} {evs : List Event} (e q : Nat)
    (hok : ∀ ev ∈ evs, EventOk L alg ev) :
    ((deliveredData evs).filter (· ≠ [])).Sublist
      ((inEntries e q evs).filterMap Entry.data) := by
  induction evs generalizing e q with
  | nil => exact List.Sublist.refl _
  | cons ev evs ih =>
    have ih := fun e q => ih e q fun ev h => hok ev (List.mem_cons_of_mem _ h)
    cases ev with
    | sealed r => exact ih _ _
    | outboundUpdated st => exact ih _ _
    | opened r =>
      have ho : OpenOk L alg r := hok _ List.mem_cons_self
      have hrest : ∀ k, ((deliveredData evs).filter (· ≠ [])).Sublist
          ((if r.rekey = some .ok then inEntries (e + 1) 0 evs
            else inEntries e (q + k) evs).filterMap Entry.data) := by
        intro k
        split <;> exact ih _ _
      simp only [deliveredData]
      by_cases hc : r.code = .ok
      · obtain ⟨p, content, t, hin, hu, hd⟩ := ho.2 hc
        obtain ⟨call, hcall, _⟩ := ho.1 p hin
        simp only [if_pos hc, inEntries, hcall, hin]
        rcases hd with ⟨rfl, _, hd⟩ | ⟨_, hd⟩
        · rw [List.filterMap_cons_some (b := content) (by simp [Entry.data, hu]), hd]
          by_cases hne : content = []
          · rw [List.filter_cons_of_neg (by simp [hne])]
            exact (hrest 1).cons _
          · rw [List.filter_cons_of_pos (by simp [hne])]
            exact (hrest 1).cons_cons _
        · rw [List.filter_cons_of_neg (by simp [hd])]
          exact (hrest 1).trans ((List.sublist_cons_self _ _).filterMap _)
      · rw [if_neg hc]
        simp only [inEntries]
        split
        · split
          · exact (hrest 1).trans ((List.sublist_cons_self _ _).filterMap _)
          · exact hrest 1
        · exact hrest 0

/-- If every call succeeded and opened application data, then the positions follow each other
without gaps, and everything is delivered. -/
theorem delivered_all {L : Lib} {alg} {evs : List Event} (e q : Nat)
    (hok : ∀ ev ∈ evs, EventOk L alg ev) (hs : ∀ r, .opened r ∈ evs → r.code = .ok)
    (hd : ∀ y ∈ inEntries e q evs, y.data ≠ none) :
    deliveredData evs = (inEntries e q evs).filterMap Entry.data ∧
    ∀ (i : Nat) (h : i < (inEntries e q evs).length), ((inEntries e q evs)[i]).seq = q + i := by
  induction evs generalizing e q with
  | nil => exact ⟨rfl, fun i h => absurd h (Nat.not_lt_zero _)⟩
  | cons ev evs ih =>
    have ih := fun e q => ih e q (fun ev h => hok ev (List.mem_cons_of_mem _ h))
      (fun r h => hs r (List.mem_cons_of_mem _ h))
    cases ev with
    | sealed r => exact ih _ _ hd
    | outboundUpdated st => exact ih _ _ hd
    | opened r =>
      have ho : OpenOk L alg r := hok _ List.mem_cons_self
      have hc := hs r List.mem_cons_self
      obtain ⟨p, content, t, hin, hu, hdd⟩ := ho.2 hc
      obtain ⟨call, hcall, _⟩ := ho.1 p hin
      simp only [inEntries, hcall, hin] at hd ⊢
      simp only [deliveredData, if_pos hc]
      have h0 := hd _ List.mem_cons_self
      simp only [Entry.data, hu] at h0
      rcases hdd with ⟨rfl, hrk, hdd⟩ | ⟨rfl, _⟩
      · have hne : ¬ (r.rekey = some .ok) := by rw [hrk]; simp
        simp only [if_neg hne] at hd ⊢
        obtain ⟨i1, i2⟩ := ih e (q + 1) fun y hy => hd y (List.mem_cons_of_mem _ hy)
        refine ⟨?_, fun i hi => ?_⟩
        · rw [List.filterMap_cons_some (b := content) (by simp [Entry.data, hu]), hdd, i1]
        · cases i with
          | zero => rfl
          | succ i =>
            rw [List.getElem_cons_succ, i2 i (by simpa using hi)]
            omega
      · simp [Spec.handshakeType, Spec.appDataType] at h0

/-- A sender of application data that never updates its key. -/
theorem dataOnly_entries {L : Lib} {s ops c c' evs} {e q : Nat} (h : run L c ops = .ok (c', evs))
    (hi : Good s c.inC) (ho : Good s c.outC) (hd : ∀ op ∈ ops, Spec.DataOnly op) :
    ∀ y ∈ outEntries e q evs, y.epoch = e ∧ y.data ≠ none := by
  induction ops generalizing c evs q with
  | nil => cases h; exact fun _ h => absurd h List.not_mem_nil
  | cons op ops ih =>
    obtain ⟨c1, ev, es, h1, h2, h3⟩ := run_cons h
    subst h3
    obtain ⟨g1, g2⟩ := step_good h1 hi ho
    have ih := fun q => ih (q := q) h2 g1 g2 fun o h => hd o (List.mem_cons_of_mem _ h)
    have hd := hd op List.mem_cons_self
    cases op with
    | updateOutboundKey f => exact absurd hd id
    | unprotect f hdr pl out =>
      simp only [step, exec_bind_eq_ok] at h1
      obtain ⟨⟨d', r'⟩, q1, q2⟩ := h1
      cases q2
      exact ih _
    | protect f rt pt rec =>
      simp only [step, exec_bind_eq_ok] at h1
      obtain ⟨⟨d', r⟩, q1, q2⟩ := h1
      cases q2
      obtain ⟨_, hr⟩ := protect_ok ho q1
      intro y hy
      simp only [outEntries] at hy
      split at hy
      · next call hcall =>
        split at hy
        · next hc =>
          rcases List.mem_cons.1 hy with rfl | hy
          · obtain ⟨t, call', ht, hcall', hdat⟩ := hr hc
            rw [hcall] at hcall'
            cases hcall'
            have hrt : rt = .applicationData := hd
            subst hrt
            cases ht
            have hu := unpad_inner (flat pt) Spec.appDataType 0 (by decide)
            rw [← hdat] at hu
            exact ⟨rfl, by simp [Entry.data, hu]⟩
          · exact ih _ y hy
        · exact ih _ y hy
      · exact ih _ y hy

/-! ### The two statements for connections -/

theorem run_follows {L : Lib} {a : CreateArgs} {s c0 c ops evs}
    (hs : Spec.suite a.ciphersuite = some s) (hc : Created L a c0)
    (h : run L c0 ops = .ok (c, evs)) :
    Spec.Follows L s a.outSecret 0 a.outSequence.toNat (outTrace evs) ∧
    Spec.Follows L s a.inSecret 0 a.inSequence.toNat (inTrace evs) := by
  obtain ⟨a1, a2⟩ := hc.at hs
  obtain ⟨⟨o, e, b1, b2⟩, ⟨o', e', b3, b4⟩⟩ := run_project h
  obtain ⟨fi, fo, h1⟩ := hc
  obtain ⟨_, _, _, _, g1, g2, _⟩ := create_inv h1
  have e1 := (half_created hs g1).2
  have e2 := (half_created hs g2).2
  rw [← b2, ← b4]
  constructor
  · exact HalfConn.follows_run 0 a2.good (by rw [e2]; exact ⟨rfl, rfl, rfl⟩) _
      (fun _ => by rw [e2]; rfl) b1
  · exact HalfConn.follows_run 0 a1.good (by rw [e1]; exact ⟨rfl, rfl, rfl⟩) _
      (fun _ => by rw [e1]; rfl) b3

theorem Before_irrefl (x : Entry) : ¬ x.Before x := by unfold Entry.Before; omega

theorem Before_trans (x y z : Entry) : x.Before y → y.Before z → x.Before z := by
  unfold Entry.Before; omega

theorem opened_subset {L : Lib} {s : Spec.Suite} {a b : CreateArgs} {a0 ca b0 cb : Conn}
    {opsA opsB : List Op} {evsA evsB : List Event} (hb : Spec.suite b.ciphersuite = some s)
    (hm : Spec.Mirrored a b) (ha0 : Created L a a0) (hb0 : Created L b b0)
    (hra : run L a0 opsA = .ok (ca, evsA)) (hrb : run L b0 opsB = .ok (cb, evsB))
    (hva : ∀ op ∈ opsA, Spec.ValidArgs op) (hvb : ∀ op ∈ opsB, Spec.ValidArgs op)
    (hu : Unforged evsA evsB) (hk : KeysDistinct L s b evsA evsB) :
    (∀ y ∈ inEntries 0 b.inSequence.toNat evsB, y ∈ outEntries 0 b.inSequence.toNat evsA) ∧
    (∀ ev ∈ evsB, EventOk L s.alg ev) ∧
    sentData opsA evsA = (outEntries 0 b.inSequence.toNat evsA).filterMap Entry.data ∧
    ((∀ op ∈ opsA, Spec.DataOnly op) →
      ∀ y ∈ outEntries 0 b.inSequence.toNat evsA, y.epoch = 0 ∧ y.data ≠ none) := by
  have ha : Spec.suite a.ciphersuite = some s := by rw [hm.suite]; exact hb
  have ga := ha0.at ha
  have gb := hb0.at hb
  have oa := run_ok hra ga.1.good ga.2.good hva
  have ob := run_ok hrb gb.1.good gb.2.good hvb
  have fa := run_follows ha ha0 hra
  have fb := run_follows hb hb0 hrb
  exact ⟨fun y hy => opened_was_sealed hb hm fa.1 fb.1 fb.2 oa ob hu hk hy, ob,
    sentData_eq _ _ hra ga.1.good ga.2.good,
    fun hd => dataOnly_entries hra ga.1.good ga.2.good hd⟩

theorem delivered_subsequence {L : Lib} {s : Spec.Suite} {a b : CreateArgs} {a0 ca b0 cb : Conn}
    {opsA opsB : List Op} {evsA evsB : List Event} (hb : Spec.suite b.ciphersuite = some s)
    (hm : Spec.Mirrored a b) (ha0 : Created L a a0) (hb0 : Created L b b0)
    (hra : run L a0 opsA = .ok (ca, evsA)) (hrb : run L b0 opsB = .ok (cb, evsB))
    (hva : ∀ op ∈ opsA, Spec.ValidArgs op) (hvb : ∀ op ∈ opsB, Spec.ValidArgs op)
    (hu : Unforged evsA evsB) (hk : KeysDistinct L s b evsA evsB) :
    ((deliveredData evsB).filter (· ≠ [])).Sublist (sentData opsA evsA) := by
  obtain ⟨h1, h2, h3, _⟩ := opened_subset hb hm ha0 hb0 hra hrb hva hvb hu hk
  rw [h3]
  exact (delivered_sublist 0 b.inSequence.toNat h2).trans
    ((sublist_of_subset Before_irrefl Before_trans (inEntries_pairwise _ _ _)
      (outEntries_pairwise _ _ _) h1).filterMap _)

theorem delivered_prefix {L : Lib} {s : Spec.Suite} {a b : CreateArgs} {a0 ca b0 cb : Conn}
    {opsA opsB : List Op} {evsA evsB : List Event} (hb : Spec.suite b.ciphersuite = some s)
    (hm : Spec.Mirrored a b) (ha0 : Created L a a0) (hb0 : Created L b b0)
    (hra : run L a0 opsA = .ok (ca, evsA)) (hrb : run L b0 opsB = .ok (cb, evsB))
    (hva : ∀ op ∈ opsA, Spec.ValidArgs op) (hvb : ∀ op ∈ opsB, Spec.ValidArgs op)
    (hu : Unforged evsA evsB) (hk : KeysDistinct L s b evsA evsB)
    (hd : ∀ op ∈ opsA, Spec.DataOnly op) (hok : ∀ r, .opened r ∈ evsB → r.code = .ok) :
    deliveredData evsB <+: sentData opsA evsA := by
  obtain ⟨h1, h2, h3, h4⟩ := opened_subset hb hm ha0 hb0 hra hrb hva hvb hu hk
  have h4 := h4 hd
  obtain ⟨h5, h6⟩ := delivered_all 0 b.inSequence.toNat h2 hok fun y hy => (h4 y (h1 y hy)).2
  rw [h3, h5]
  refine List.IsPrefix.filterMap _ (prefix_of_subset Entry.seq b.inSequence.toNat h6 ?_ ?_ h1)
  · refine (outEntries_pairwise evsA 0 b.inSequence.toNat).imp_of_mem fun {x y} hx hy hlt => ?_
    have := (h4 x hx).1
    have := (h4 y hy).1
    unfold Entry.Before at hlt
    omega
  · intro y hy
    have h7 := outEntries_from hy
    have := (h4 y hy).1
    unfold From at h7
    omega

end S2A.Record
