import Verif.Spec.FrameSays
import Verif.Props.RecordSays
import Verif.Lemmas.FrameWalk
import Verif.Lemmas.ReferenceHist
import Verif.Lemmas.Text
/-
What the message of a failing call of a frame protector says is so (C124).
-/
namespace S2A.Frame
open HalfConn (exec_bind_eq_ok)
open Record (Conn Code)
open Spec (FrameUnprotectSays headerLength NextRecordSays Opened Sealed AllocOk ProtectSays)

theorem totalLen_cons' (v : Iovec) (vs : List Iovec) : totalLen (v :: vs) = v.len + totalLen vs := by
  simp [totalLen]

theorem readHeaderT_message {k i : Nat} {vs : List Iovec} {on : Nat} {x}
    (h : readHeaderT k i vs on = .ok x) :
    match x with
    | .error (e, m) => e = .failedPrecondition ∧
      (m = "|vecs| is too small to hold TLS record header." ∧ totalLen vs < on + k ∨
       m = "TLS record header is incorrectly formatted." ∧
        ∃ j b, j < k ∧ ((flat vs).drop on)[j]? = some b ∧ headerByteOk (i + j) b = false)
    | .ok (hd, vs', on') => hd.length = k ∧ hd ++ (flat vs').drop on' = (flat vs).drop on ∧
        totalLen vs' + on + k = totalLen vs + on' := by
  induction k generalizing i vs on x with
  | zero => cases h; simp
  | succ k ih =>
    cases vs with
    | nil => cases h; exact ⟨rfl, Or.inl ⟨rfl, by simp [totalLen]; omega⟩⟩
    | cons v vs =>
      cases v with
      | null n => cases h
      | buf d =>
        simp only [readHeaderT, exec_bind_eq_ok] at h
        obtain ⟨b, hb, h⟩ := h
        have hd : d[on]? = some b := by
          unfold Iovec.byteAt at hb
          simp only at hb
          split at hb <;> cases hb
          assumption
        have hlt : on < d.length := (List.getElem?_eq_some_iff.1 hd).1
        have hcons : (flat (.buf d :: vs)).drop on = b :: (flat (.buf d :: vs)).drop (on + 1) := by
          have : (flat (.buf d :: vs))[on]? = some b := by
            simp only [flat_cons, Iovec.bytes]
            rw [List.getElem?_append_left hlt, hd]
          obtain ⟨h1, h2⟩ := List.getElem?_eq_some_iff.1 this
          rw [List.drop_eq_getElem_cons h1, h2]
        split at h
        · next hbad =>
          cases h
          refine ⟨rfl, Or.inr ⟨rfl, 0, b, by omega, by rw [hcons]; rfl, by simpa using hbad⟩⟩
        · have hadv : (flat (advance (.buf d) vs (on + 1)).1).drop (advance (.buf d) vs (on + 1)).2 =
              (flat (.buf d :: vs)).drop (on + 1) ∧
              totalLen (advance (.buf d) vs (on + 1)).1 + (on + 1) =
                totalLen (.buf d :: vs) + (advance (.buf d) vs (on + 1)).2 := by
            unfold advance
            split
            · next he =>
              simp only [Iovec.len] at he
              have hl : d.length = on + 1 := by omega
              refine ⟨?_, ?_⟩
              · simp only [flat_cons, Iovec.bytes, List.drop_zero]
                rw [← hl, List.drop_left]
              · simp only [totalLen_cons', Iovec.len]
                omega
            · exact ⟨rfl, rfl⟩
          generalize advance (.buf d) vs (on + 1) = a at h hadv
          obtain ⟨vs1, on1⟩ := a
          simp only [exec_bind_eq_ok] at h
          obtain ⟨y, hy, h⟩ := h
          have := ih hy
          cases y with
          | error e =>
            cases h
            obtain ⟨h1, h2⟩ := this
            refine ⟨h1, ?_⟩
            simp only at hadv
            rcases h2 with ⟨h2, h3⟩ | ⟨h2, j, b', h3, h4, h5⟩
            · exact Or.inl ⟨h2, by omega⟩
            · refine Or.inr ⟨h2, j + 1, b', by omega, ?_, ?_⟩
              · rw [hcons, List.getElem?_cons_succ, ← hadv.1]; exact h4
              · rw [← h5]; congr 1; omega
          | ok y =>
            obtain ⟨hd', vs2, on2⟩ := y
            cases h
            obtain ⟨h1, h2, h3⟩ := this
            simp only at hadv
            refine ⟨by simp [h1], ?_, by omega⟩
            rw [hcons, List.cons_append, h2, hadv.1]

theorem isolate_message {vs : List Iovec} {on n : Nat} {x} (h : isolate vs on n = .ok x) :
    match x with
    | .error e => e = .failedPrecondition ∧ totalLen vs < on + n
    | .ok (ps, vs', on') => (flat ps).length = n ∧
        flat ps ++ (flat vs').drop on' = (flat vs).drop on ∧
        totalLen vs' + on + n = totalLen vs + on' := by
  induction vs generalizing on n x with
  | nil =>
    cases n with
    | zero => cases h; simp
    | succ n => cases h; exact ⟨rfl, by simp [totalLen]; omega⟩
  | cons v vs ih =>
    cases n with
    | zero => cases h; simp
    | succ n =>
      cases v with
      | null m => cases h
      | buf d =>
        simp only [isolate, exec_bind_eq_ok] at h
        obtain ⟨left, hl, piece, hp, h⟩ := h
        have hle : on ≤ d.length ∧ left = d.length - on := by
          unfold subSize at hl
          split at hl
          · next hh => cases hl; exact ⟨hh, rfl⟩
          · cases hl
        obtain ⟨hle, rfl⟩ := hle
        have hpc : piece = .buf ((d.drop on).take (min (d.length - on) (n + 1))) := by
          unfold Iovec.slice at hp
          simp only at hp
          split at hp <;> cases hp
          rfl
        subst hpc
        split at h
        · next he =>
          simp only [Iovec.len] at he
          simp only [exec_bind_eq_ok] at h
          obtain ⟨y, hy, h⟩ := h
          have := ih hy
          cases y with
          | error e =>
            cases h
            obtain ⟨h1, h2⟩ := this
            refine ⟨h1, ?_⟩
            simp only [totalLen_cons', Iovec.len]
            omega
          | ok y =>
            obtain ⟨ps, vs2, on2⟩ := y
            cases h
            obtain ⟨h1, h2, h3⟩ := this
            have ht : (d.drop on).take (min (d.length - on) (n + 1)) = d.drop on :=
              List.take_of_length_le (by simp; omega)
            refine ⟨?_, ?_, by simp only [totalLen_cons', Iovec.len]; omega⟩
            · simp only [flat_cons, Iovec.bytes, List.length_append, List.length_take,
                List.length_drop, h1]
              omega
            · simp only [flat_cons, Iovec.bytes, ht, List.append_assoc, h2, List.drop_zero]
              rw [List.drop_append_of_le_length hle]
        · next he =>
          simp only [Iovec.len] at he
          cases h
          refine ⟨?_, ?_, by omega⟩
          · simp [flat_cons, Iovec.bytes]; omega
          · simp only [flat_cons, Iovec.bytes, flat_nil, List.append_nil]
            rw [List.drop_append_of_le_length (by omega), List.drop_append_of_le_length hle,
              ← List.append_assoc, ← List.drop_drop, List.take_append_drop]

theorem bad_header {b : Bytes} {j : Nat} {x : UInt8} (hb : b[j]? = some x)
    (hbad : headerByteOk (0 + j) x = false) : b.take 3 ≠ [23, 3, 3] := by
  intro h3
  have hj3 : j < 3 := by
    rcases j with _ | _ | _ | j
    · omega
    · omega
    · omega
    · simp [headerByteOk] at hbad
  have : ([23, 3, 3] : Bytes)[j]? = some x := by
    rw [← h3, List.getElem?_take_of_lt hj3]
    exact hb
  rcases j with _ | _ | _ | j
  · simp at this; subst this; simp [headerByteOk] at hbad
  · simp at this; subst this; simp [headerByteOk] at hbad
  · simp at this; subst this; simp [headerByteOk] at hbad
  · omega

theorem payloadSize_eq {hd : Bytes} (h5 : hd.length = 5) : payloadSize hd = headerLength hd := by
  match hd, h5 with
  | [a, b, c, d, e], _ => simp [payloadSize, headerLength, Nat.shiftLeft_eq]

theorem headerLength_append {hd : Bytes} (h5 : hd.length = 5) (rest : Bytes) :
    headerLength (hd ++ rest) = headerLength hd := by
  match hd, h5 with
  | [a, b, c, d, e], _ => simp [headerLength]

theorem destroyAll_evs' (s : State) (l : List (BufId × Bytes)) : (s.destroyAll l).evs = s.evs := by
  induction l generalizing s with
  | nil => rfl
  | cons x l ih => exact ih _

theorem unprotectLoopT_message {L : Lib} {A : Allocator} (hA : AllocOk A) {f : Nat → Record.Fault}
    {errs : Nat → String} {fuel i : Nat} {s s' : State} {vs : List Iovec} {on rem : Nat}
    {done : List (BufId × Bytes)} {log : List String} {r : Result} {said : Said}
    (hrem : totalLen vs = on + rem)
    (h : unprotectLoopT L A f errs fuel i s vs on rem done log = .ok ((s', r), said)) :
    r.status = .ok ∧ said.message = "" ∨
    ∃ k c1 before rest, Opened L k s.conn c1 ∧ (flat vs).drop on = before ++ rest ∧
      before.length ≤ rem ∧
      NextRecordSays L c1 (f (i + k)).evp (errs (i + k)) rest (rem - before.length) s'.evs r.status
        said.message := by
  induction fuel generalizing i s vs on rem done log with
  | zero => cases h
  | succ fuel ih =>
    unfold unprotectLoopT at h
    split at h
    · next hge =>
      have hov := Record.recordOverhead_eq s.conn
      simp only [exec_bind_eq_ok] at h
      obtain ⟨x, hx, h⟩ := h
      have hh := readHeaderT_message hx
      cases x with
      | error e =>
        obtain ⟨e, m⟩ := e
        cases h
        obtain ⟨rfl, hh | ⟨rfl, j, b, hj, hb, hbad⟩⟩ := hh
        · simp only [kHeaderLength] at hh; omega
        · exact Or.inr ⟨0, _, [], _, .none _, rfl, Nat.zero_le _, .header (bad_header hb hbad)⟩
      | ok x =>
        obtain ⟨hd, vs1, on1⟩ := x
        obtain ⟨h5, hf, ht⟩ := hh
        simp only [kHeaderLength] at h5 hf ht
        have hps := payloadSize_eq h5
        have hpv : headerLength ((flat vs).drop on) = headerLength hd := by
          rw [← hf]; exact headerLength_append h5 _
        simp only [exec_bind_eq_ok] at h
        obtain ⟨y, hy, h⟩ := h
        have hi := isolate_message hy
        cases y with
        | error e =>
          cases h
          obtain ⟨rfl, hi⟩ := hi
          refine Or.inr ⟨0, _, [], _, .none _, rfl, Nat.zero_le _, .incomplete ?_⟩
          rw [hpv, ← hps]
          simp only [List.length_nil]
          omega
        | ok y =>
          obtain ⟨payload, vs2, on2⟩ := y
          obtain ⟨hl, hp, ht2⟩ := hi
          simp only [State.alloc, exec_bind_eq_ok, State.crypterUnprotectT] at h
          obtain ⟨⟨⟨s1, r1⟩, said1⟩, ⟨⟨⟨c1, r'⟩, said2⟩, hu, h1⟩, h⟩ := h
          cases h1
          obtain ⟨d, hd1, hd2⟩ := hA s.next (payloadSize hd)
          have hsay := Record.C124_unprotect_says L (f i) (errs i) _ _ _ _ _ _ _ hu
          simp only at h
          have hsplit : (flat vs).drop on = hd ++ flat payload ++ (flat vs2).drop on2 := by
            rw [← hf, ← hp, List.append_assoc]
          split at h
          · next hne =>
            cases h
            rcases hsay with hsay | hsay
            · exact absurd hsay.1 hne
            · rw [hd1, show (Iovec.buf d).len = headerLength hd from hd2.trans hps] at hsay
              refine Or.inr ⟨0, _, [], _, .none _, rfl, Nat.zero_le _, ?_⟩
              refine .record hd _ payload _ _ h5 (hl.trans hps) hsplit ?_ hsay
              rw [destroyAll_evs']
              simp [State.destroy]
          · next hok =>
            simp only [exec_bind_eq_ok] at h
            obtain ⟨rem', hr, h⟩ := h
            have hr' : rem' + (5 + payloadSize hd) = rem := by
              unfold subSize at hr
              simp only [kHeaderLength] at hr
              split at hr <;> cases hr
              omega
            rcases ih (by omega) h with h | ⟨k, c2, before, rest, h1, h2, h3, h4⟩
            · exact Or.inl h
            · refine Or.inr ⟨k + 1, c2, hd ++ flat payload ++ before, rest,
                .more hu (by simpa using hok) h1, ?_, ?_, ?_⟩
              · rw [hsplit, h2, List.append_assoc, List.append_assoc, List.append_assoc]
              · simp only [List.length_append, h5, hl]; omega
              · have e1 : i + (k + 1) = i + 1 + k := by omega
                have e2 : rem - (hd ++ flat payload ++ before).length = rem' - before.length := by
                  simp only [List.length_append, h5, hl]; omega
                rw [e1, e2]
                exact h4
    · cases h; exact Or.inl ⟨rfl, rfl⟩

/-- `Unprotect` of a frame protector into new buffers, in any state, for all arguments and all
failures of the library: OK without a message; or there are too few bytes for a record, and the
message says so; or `k` records were opened, and the message says what is wrong with the next. -/
theorem C124_frame_unprotect_all_says (L : Lib) (A : Allocator) (hA : AllocOk A)
    (f : Nat → Record.Fault) (errs : Nat → String) (s s' : State) (vs : List Iovec) (r : Result)
    (said : Said) (h : unprotectT L A f errs s vs = .ok ((s', r), said)) :
    r.status = .ok ∧ said.message = "" ∨
    totalLen vs < 5 + 1 + 16 ∧ r.status = .failedPrecondition ∧
      said.message = "|protected_bytes| is too small to contain a TLS record." ∨
    ∃ k c1 before rest, Opened L k s.conn c1 ∧ flat vs = before ++ rest ∧
      before.length ≤ totalLen vs ∧
      NextRecordSays L c1 (f k).evp (errs k) rest (totalLen vs - before.length) s'.evs r.status
        said.message := by
  unfold unprotectT at h
  simp only at h
  split at h
  · next hn => cases h; exact Or.inr (Or.inl ⟨hn, rfl, rfl⟩)
  · rcases unprotectLoopT_message hA (by omega) h with h | ⟨k, c1, before, rest, h1, h2, h3, h4⟩
    · exact Or.inl h
    · rw [Nat.zero_add] at h4
      exact Or.inr (Or.inr ⟨k, c1, before, rest, h1, by simpa using h2, h3, h4⟩)

/-- `Unprotect` of a frame protector into a given buffer, in any state, for all arguments and all
failures of the library: OK without a message, or a status and a message that say what was wrong. -/
theorem C124_frame_unprotect_says (L : Lib) (f : Record.Fault) (errs : String) (s s' : State)
    (vs : List Iovec) (out out' : Iovec) (st : StatusCode) (n : Nat) (said : Said)
    (h : unprotectIntoT L f errs s vs out = .ok ((s', st, n, out'), said)) :
    st = .ok ∧ said.message = "" ∨
    ∃ inner rekey, FrameUnprotectSays L s.conn f.evp errs vs out.len inner rekey st said.message ∧
      ∀ r, s'.evs = s.evs ++ [.opened r] → inner = r.inner ∧ rekey = r.rekey := by
  have none' : ∀ r : Record.Result, s.evs = s.evs ++ [.opened r] → False := fun r h => by
    have := congrArg List.length h
    simp at this
  unfold unprotectIntoT at h
  split at h
  · next hn =>
    cases h
    refine Or.inr ⟨none, none, .tooShort ?_, fun r hr => (none' r hr).elim⟩
    unfold numberBytesToUnprotect at hn
    have := Record.recordOverhead_eq s.conn
    split at hn
    · omega
    · simp only [kHeaderLength] at hn; omega
  · next hn =>
    have hbig : 22 ≤ totalLen vs := by
      unfold numberBytesToUnprotect at hn
      have := Record.recordOverhead_eq s.conn
      split at hn
      · exact absurd rfl hn
      · omega
    simp only [exec_bind_eq_ok] at h
    obtain ⟨x, hx, h⟩ := h
    have hh := readHeaderT_message hx
    cases x with
    | error e =>
      obtain ⟨e, m⟩ := e
      cases h
      obtain ⟨rfl, hh | ⟨rfl, j, b, hj, hb, hbad⟩⟩ := hh
      · simp only [kHeaderLength] at hh; omega
      · refine Or.inr ⟨none, none, .header ?_, fun r hr => (none' r hr).elim⟩
        exact bad_header (by simpa using hb) hbad
    | ok x =>
      obtain ⟨hd, vs1, on1⟩ := x
      obtain ⟨h5, hf, ht⟩ := hh
      simp only [kHeaderLength, List.drop_zero] at h5 hf ht
      have hps : payloadSize hd = headerLength hd := by
        match hd, h5 with
        | [a, b, c, d, e], _ => simp [payloadSize, headerLength, Nat.shiftLeft_eq]
      have hpv : headerLength hd = headerLength (flat vs) := by
        match hd, h5 with
        | [a, b, c, d, e], _ => rw [← hf]; simp [headerLength]
      simp only [exec_bind_eq_ok] at h
      obtain ⟨y, hy, h⟩ := h
      have hi := isolate_message hy
      cases y with
      | error e =>
        cases h
        obtain ⟨rfl, hi⟩ := hi
        exact Or.inr ⟨none, none, .incomplete (by rw [← hpv, ← hps]; omega),
          fun r hr => (none' r hr).elim⟩
      | ok y =>
        obtain ⟨payload, vs2, on2⟩ := y
        obtain ⟨hl, hp, _⟩ := hi
        simp only [exec_bind_eq_ok, State.crypterUnprotectT] at h
        obtain ⟨⟨⟨s1, r⟩, said1⟩, ⟨⟨⟨c1, r'⟩, said2⟩, hu, h1⟩, h⟩ := h
        cases h1
        have hsay := Record.C124_unprotect_says L f errs _ _ _ _ _ _ _ hu
        simp only at h
        split at h
        · next hne =>
          cases h
          rcases hsay with hsay | hsay
          · exact absurd hsay.1 hne
          · refine Or.inr ⟨_, _, .record hd ((flat vs2).drop on2) payload _ _ _ _ h5
              (hl.trans hps) ?_ hsay, ?_⟩
            · rw [← hf, ← hp, List.append_assoc]
            · intro r0 hr
              simp at hr
              rw [hr]
              exact ⟨rfl, rfl⟩
        · cases h; exact Or.inl ⟨rfl, rfl⟩

/-! ## Protect -/

theorem protectT_ok {L : Lib} {f : EvpFault} {q : String} {c c' : Conn} {rt : Record.RecordType}
    {pt : List Iovec} {record : Iovec} {r : Record.Result} {said : Said}
    (hn : c.outC.nonce.length = 12)
    (h : Record.protectT L f q c rt pt record = .ok ((c', r), said)) (hc : r.code = .ok) :
    r.written = totalLen pt + 22 ∧ totalLen pt + 22 ≤ record.len ∧ r.out.bytes.length = record.len ∧
      (∃ b, record = .buf b) ∧ c'.outC.nonce.length = 12 := by
  cases record with
  | null n =>
    unfold Record.protectT at h
    simp only at h
    split at h
    · cases h; cases hc
    · split at h
      · cases h; cases hc
      · cases h
  | buf rb =>
    obtain ⟨c1, r1, h1, h2⟩ := Record.protect_spec L f c rt pt rb hn
    have hm : Record.protect L f c rt pt (.buf rb) = .ok (c', r) := by
      rw [← Record.protectT_mute L f q, h]; rfl
    rw [hm] at h1
    cases h1
    obtain ⟨S, g1, g2, g3, g4⟩ := Record.protectSpec_ok h2 hc
    refine ⟨g2, g4, ?_, ⟨rb, rfl⟩, ?_⟩
    · rw [g3]
      simp only [Iovec.bytes, Iovec.len, List.length_append, List.length_drop, g1]
      omega
    · unfold Record.ProtectSpec at h2
      rcases h2 with ⟨_, g, _⟩ | ⟨_, _, ⟨_, g, _⟩ | ⟨t, _, ⟨_, g, _⟩ | ⟨_, g, _⟩⟩⟩ <;> rw [g]
      · exact hn
      · exact hn
      · exact hn
      · exact hn

theorem protectLoopT_message {L : Lib} {f : Nat → EvpFault} {errs : Nat → String} {id : BufId}
    {fuel i : Nat} {s s' : State} {vs : List Iovec} {on rem idx : Nat} {first : Bool}
    {out out' : Iovec} {log : List String} {st : StatusCode} {said : Said}
    (hn : s.conn.outC.nonce.length = 12) (hcur : CurLe vs on) (hrem : totalLen vs = on + rem)
    (hidx : idx ≤ out.len)
    (h : protectLoopT L f errs id fuel i s vs on first rem idx out log = .ok ((s', st, out'), said)) :
    st = .ok ∧ said.message = "" ∨
    ∃ k c1 pieces code, Sealed L k s.conn c1 ∧ totalLen pieces ≤ 2 ^ 14 ∧
      idx + (2 ^ 14 + 22) * k ≤ out.len ∧
      (AllWF vs → ∃ before after, before.length = 2 ^ 14 * k ∧
        (flat vs).drop on = before ++ flat pieces ++ after) ∧
      ProtectSays L c1 (f (i + k)) (errs (i + k)) .applicationData pieces
        (out.len - idx - (2 ^ 14 + 22) * k) code said.message ∧ st = convertCode code := by
  induction fuel generalizing i s vs on first rem idx out log with
  | zero => cases h
  | succ fuel ih =>
    unfold protectLoopT at h
    split at h
    · obtain ⟨N, hN⟩ : ∃ N, N = if rem < kMaxPlaintext then rem else kMaxPlaintext := ⟨_, rfl⟩
      simp only [← hN] at h
      have hmax : kMaxPlaintext = 16384 := rfl
      have hN1 : N ≤ rem ∧ N ≤ 16384 ∧ (N < rem → N = 16384) := by
        rw [hN]; split <;> omega
      obtain ⟨pieces, vs1, on1, hc, hp, hcur1, ht1, hwf⟩ := collect_spec vs on N hcur (by omega)
      rw [hc] at h
      simp only [exec_bind_eq_ok, State.crypterProtectT] at h
      obtain ⟨_, he, room, hroom, slot, hslot, ⟨⟨s1, r⟩, said1⟩, ⟨⟨⟨c1, r'⟩, said2⟩, hu, h1⟩, h⟩ := h
      cases he
      cases h1
      have hroom' : room = out.len - idx := by
        simp only [subSize, if_pos hidx] at hroom
        cases hroom
        rfl
      have hsl : slot.len = room := by
        unfold Iovec.slice at hslot
        split at hslot
        · split at hslot <;> cases hslot
          rfl
        · split at hslot <;> cases hslot
          simp only [Iovec.len, List.length_take, List.length_drop]
          omega
      have hsay := Record.C124_protect_says L (f i) (errs i) _ _ _ _ _ _ _ hu
      have hpre : AllWF vs → ∃ before after : Bytes, before.length = 2 ^ 14 * 0 ∧
          (flat vs).drop on = before ++ flat pieces ++ after := fun hv => by
        obtain ⟨_, _, h3, _⟩ := hwf hv
        refine ⟨[], ((flat vs).drop on).drop N, rfl, ?_⟩
        rw [h3, List.nil_append]
        exact (List.take_append_drop N _).symm
      simp only at h
      split at h
      · next hne =>
        cases h
        rcases hsay with hsay | hsay
        · exact absurd hsay.1 hne
        · refine Or.inr ⟨0, _, pieces, _, .none _, by omega, by omega, hpre, ?_, rfl⟩
          rw [hsl, hroom'] at hsay
          exact hsay
      · next hok =>
        have hok : r'.code = .ok := by simpa using hok
        obtain ⟨g1, g2, g3, ⟨b, rfl⟩, g5⟩ := protectT_ok hn hu hok
        replace g1 : r'.written = totalLen pieces + 22 := g1
        replace g2 : totalLen pieces + 22 ≤ b.length := g2
        replace hsl : b.length = room := hsl
        split at h
        · next hw =>
          have := Record.recordOverhead_eq c1
          exact absurd (by rw [g1, hp]; rfl) hw
        · have hlen : (out.setBytes (out.bytes.take idx ++ r'.out.bytes)).len = out.len := by
            cases out with
            | null m =>
              unfold Iovec.slice at hslot
              simp only at hslot
              split at hslot <;> cases hslot
            | buf d =>
              simp only [Iovec.setBytes, Iovec.len, Iovec.bytes, List.length_append,
                List.length_take] at *
              omega
          by_cases hz : rem - N = 0
          · rw [hz] at h
            cases fuel with
            | zero => cases h
            | succ fuel => cases h; exact Or.inl ⟨rfl, rfl⟩
          · have hN2 : N = 16384 := hN1.2.2 (by omega)
            have hih := ih (s := { s with conn := c1, evs := s.evs ++ [.sealed r'] }) g5 hcur1
              (by omega) (by rw [hlen, g1]; omega) h
            rcases hih with hih | ⟨k, c2, ps, code, k1, k2, k3, k4, k5, k6⟩
            · exact Or.inl hih
            · rw [hlen] at k3 k5
              refine Or.inr ⟨k + 1, c2, ps, code, .more hu hok k1, k2, by rw [g1] at k3; omega, ?_, ?_, k6⟩
              · intro hv
                obtain ⟨_, w2, w3, w4⟩ := hwf hv
                obtain ⟨before, after, b1, b2⟩ := k4 w2
                refine ⟨flat pieces ++ before, after, ?_, ?_⟩
                · have : (flat pieces).length = N := by
                    rw [w3, List.length_take, ahead, List.length_drop]
                    have := AllWF.totalLen_eq hv
                    omega
                  rw [List.length_append, this, b1]
                  omega
                · have e : (flat vs).drop on = flat pieces ++ (flat vs1).drop on1 := by
                    rw [w3, show (flat vs1).drop on1 = ahead vs1 on1 from rfl, w4]
                    exact (List.take_append_drop N _).symm
                  rw [e, b2]
                  simp only [List.append_assoc]
              · have e1 : i + (k + 1) = i + 1 + k := by omega
                have e2 : out.len - idx - (2 ^ 14 + 22) * (k + 1) =
                    out.len - (idx + r'.written) - (2 ^ 14 + 22) * k := by
                  rw [g1]; omega
                rw [e1, e2]
                exact k5
    · cases h; exact Or.inl ⟨rfl, rfl⟩

/-- `Protect` of a frame protector into a given buffer, for all arguments and all failures of the
library: OK without a message; or `k` full records were made, and the message says what is wrong with
the next.  "Protected an unexpected number of bytes." is never said.  The nonce of a connection has 12
bytes in every state that is reached (`Reach.nonce_length` below). -/
theorem C124_frame_protect_says (L : Lib) (f : Nat → EvpFault) (errs : Nat → String) (s s' : State)
    (id : BufId) (vs : List Iovec) (out out' : Iovec) (st : StatusCode) (said : Said)
    (hn : s.conn.outC.nonce.length = 12)
    (h : protectIntoT L f errs s id vs out = .ok ((s', st, out'), said)) :
    st = .ok ∧ said.message = "" ∨
    ∃ k c1 pieces code, Sealed L k s.conn c1 ∧ totalLen pieces ≤ 2 ^ 14 ∧
      (2 ^ 14 + 22) * k ≤ out.len ∧
      (AllWF vs → ∃ before after, before.length = 2 ^ 14 * k ∧
        flat vs = before ++ flat pieces ++ after) ∧
      ProtectSays L c1 (f k) (errs k) .applicationData pieces (out.len - (2 ^ 14 + 22) * k) code
        said.message ∧ st = convertCode code := by
  rcases protectLoopT_message hn (curLe_start vs) (by omega) (Nat.zero_le _) h with
    h | ⟨k, c1, pieces, code, h1, h2, h3, h4, h5, h6⟩
  · exact Or.inl h
  · simp only [Nat.zero_add, Nat.sub_zero, List.drop_zero] at h3 h4 h5
    exact Or.inr ⟨k, c1, pieces, code, h1, h2, h3, h4, h5, h6⟩

/-- C124: what the message of a failing `Protect` into a new buffer says is so. -/
theorem C124_frame_protect_all_says (L : Lib) (A : Allocator) (hA : AllocOk A)
    (f : Nat → EvpFault) (errs : Nat → String) (s s' : State) (vs : List Iovec) (r : Result)
    (said : Said) (hn : s.conn.outC.nonce.length = 12)
    (h : protectT L A f errs s vs = .ok ((s', r), said)) :
    r.status = .ok ∧ said.message = "" ∨
    ∃ k c1 pieces code, Sealed L k s.conn c1 ∧ totalLen pieces ≤ 2 ^ 14 ∧
      (2 ^ 14 + 22) * k ≤ numberBytesToProtect s (totalLen vs) ∧
      (AllWF vs → ∃ before after, before.length = 2 ^ 14 * k ∧
        flat vs = before ++ flat pieces ++ after) ∧
      ProtectSays L c1 (f k) (errs k) .applicationData pieces
        (numberBytesToProtect s (totalLen vs) - (2 ^ 14 + 22) * k) code said.message ∧
      r.status = convertCode code := by
  obtain ⟨d, hd, hl⟩ := hA s.next (numberBytesToProtect s (totalLen vs))
  simp only [protectT, State.alloc, hd, exec_bind_eq_ok] at h
  obtain ⟨⟨⟨s1, st, out⟩, sd⟩, hp, h⟩ := h
  have hs := C124_frame_protect_says L f errs _ s1 (.heap s.next) vs (.buf d) out st sd (by exact hn) hp
  simp only [Iovec.len, hl] at hs
  by_cases hst : st = .ok
  · subst hst
    cases h
    exact Or.inl ⟨rfl, rfl⟩
  · rw [if_pos hst] at h
    cases h
    rcases hs with hs | hs
    · exact absurd hs.1 hst
    · exact Or.inr hs

/-- The premise of the two theorems about `Protect` holds in every state of a protector. -/
theorem Reach.nonce_length {L : Lib} {A : Allocator} {o : Options} {s : State}
    (h : Reach L A o s) : s.conn.outC.nonce.length = 12 := by
  obtain ⟨su, hs⟩ := h.suite
  exact (h.conn.1.good hs).2.nonce

/-- Messages that occur: a header with a wrong version, a record that is not whole, a second record
that does not open after a first one that does, a buffer that is too small for what is inside, and a
failing library while protecting; and the premises of the theorems are met. -/
example :
    let said {α : Type} (x : Exec (α × Said)) : Option String := x.toOption.map (·.2.message)
    let rec1 := Demo.record 0 [9, 8, 23]
    let all (b : Bytes) := said (unprotectT Lib.toy Demo.alloc (fun _ => .none) (fun _ => "q")
      Demo.rightS [.buf b])
    let into (b : Bytes) (n : Nat) := said (unprotectIntoT Lib.toy .none "q" Demo.rightS [.buf b]
      (.buf (zeros n)))
    all (rec1.set 2 4) = some "TLS record header is incorrectly formatted." ∧
    all (rec1 ++ rec1.take 23) = some "|vecs| is too small to hold TLS record." ∧
    (all (rec1 ++ rec1)).isSome ∧ all rec1 = some "" ∧
    into (rec1.take 21) 40 = some "|protected_bytes| is too small to contain a TLS record." ∧
    into (rec1.take 23) 40 = some "|vecs| is too small to hold TLS record." ∧
    into rec1 40 = some "" ∧
    said (protectIntoT Lib.toy (fun _ => { EvpFault.none with final := true }) (fun _ => "q")
      Demo.leftS .caller [.buf [1, 2]] (.buf (zeros 24))) = some "Finalizing encryption failed. q" ∧
    Demo.leftS.conn.outC.nonce.length = 12 := by
  decide +kernel

end S2A.Frame
