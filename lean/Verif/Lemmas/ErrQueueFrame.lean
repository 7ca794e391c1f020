import Verif.Lemmas.ErrQueueRecord
import Verif.Lemmas.FrameProtect
/-
The error queue in the frame protector.
-/
namespace S2A
open Spec (Quotes Kept Drained KeptKeys DrainedKeys keyFault callStatus)

theorem _root_.S2A.Spec.Kept.ok {failed : Prop} {m : String} {f : KeyFault} {own b r : ErrQueue}
    (h : Kept failed m f own b r) (hn : ¬ failed) : r = b := by
  cases h with
  | same => rfl
  | derivation h => exact absurd h hn
  | cipher h => exact absurd h hn

theorem _root_.S2A.Spec.Kept.pre {failed failed' : Prop} {m m' : String} {f : KeyFault}
    {own b r : ErrQueue} (h : Kept failed m f own b r) (hf : failed → failed') (w : String)
    (hm : m' = w ++ m) : Kept failed' m' f own b r := by
  subst hm
  cases h with
  | same => exact .same
  | derivation h h1 h' =>
    obtain ⟨p, rfl⟩ := h'
    exact .derivation (hf h) h1 ⟨w ++ p, by rw [String.append_assoc]⟩
  | cipher h h1 h' =>
    obtain ⟨p, rfl⟩ := h'
    exact .cipher (hf h) h1 ⟨w ++ p, by rw [String.append_assoc]⟩

theorem _root_.S2A.Spec.Drained.pre {failed failed' : Prop} {m m' : String}
    {own b r : ErrQueue} (h : Drained failed m own b r) (hf : failed → failed') (w : String)
    (hm : m' = w ++ m) : Drained failed' m' own b r := by
  subst hm
  obtain ⟨h1, h2, p, rfl⟩ := h
  exact ⟨hf h1, h2, w ++ p, by rw [String.append_assoc]⟩

namespace Frame
open Record (Conn RecordType Code)

theorem empty_append (s : String) : "" ++ s = s := by simp

theorem convertCode_ne {c : Code} (h : c ≠ .ok) : convertCode c ≠ .ok :=
  fun e => h (convertCode_ok.1 e)

theorem crypterProtectQ_ends (L : Lib) (f : EvpFault) (es q : ErrQueue) (s : State)
    (pt : List Iovec) (record : Iovec) :
    QueueEnds (String.join (q ++ es)) (fun r _ => r = q)
      (fun r a => Drained (a.1.2.code ≠ .ok) a.2.message es q r)
      (s.crypterProtectQ L f es q pt record)
      (fun t => s.crypterProtectT L f t pt record) := by
  unfold State.crypterProtectQ State.crypterProtectT
  exact .bind (fun t => t) (Record.protectQ_ends ..) (fun _ _ h => .ok h) (fun _ _ h => .ok h)

theorem crypterUnprotectQ_ends (L : Lib) (f : Record.Fault) (es q : ErrQueue) (s : State)
    (header : Bytes) (payload : List Iovec) (out : Iovec) :
    QueueEnds (String.join (q ++ es)) (fun r a => Kept (a.1.2.code ≠ .ok) a.2.message f.key es q r)
      (fun r a => Drained (a.1.2.code ≠ .ok) a.2.message es q r)
      (s.crypterUnprotectQ L f es q header payload out)
      (fun t => s.crypterUnprotectT L f t header payload out) := by
  unfold State.crypterUnprotectQ State.crypterUnprotectT
  exact .bind (fun t => t) (Record.unprotectQ_ends ..) (fun _ _ h => .ok h.1)
    (fun _ _ h => .ok h.1)

/-- The texts of the queue for the records of a call that finds the queue `q`. -/
abbrev texts (q : ErrQueue) (es : Nat → ErrQueue) : Nat → String := fun i => String.join (q ++ es i)

theorem protectLoopQ_ends (L : Lib) (f : Nat → EvpFault) (es : Nat → ErrQueue) (q : ErrQueue)
    (id : BufId) (fuel i : Nat) (s : State) (vs : List Iovec) (on : Nat) (first : Bool)
    (rem idx : Nat) (out : Iovec) (log : List String) :
    QueueEnds (texts q es) (fun r _ => r = q)
      (fun r a => ∃ i, Drained (a.1.2.1 ≠ .ok) a.2.message (es i) q r)
      (protectLoopQ L f es id fuel i s vs on first rem idx out log q)
      (fun t => protectLoopT L f t id fuel i s vs on first rem idx out log) := by
  induction fuel generalizing i s vs on first rem idx out log with
  | zero => exact .ub
  | succ fuel ih =>
    unfold protectLoopQ protectLoopT
    by_cases h1 : (first || decide (rem > 0)) = true
    · simp only [if_pos h1]
      refine .step ?_
      rintro ⟨pieces, vs', on'⟩ _
      refine .step fun room _ => .step fun slot _ => ?_
      refine .bind (t₀ := texts q es) (fun t : Nat → String => t i)
        (crypterProtectQ_ends L (f i) (es i) q ..) ?_ ?_
      · rintro ⟨⟨s', r⟩, said⟩ q' rfl
        simp only
        by_cases h2 : r.code ≠ .ok
        · simp only [if_pos h2]; exact .ok rfl
        simp only [if_neg h2]
        by_cases h3 : r.written = (if rem < kMaxPlaintext then rem else kMaxPlaintext) +
            s'.conn.recordOverhead
        · have e : ∀ {β : Type} (x y : β), (if r.written ≠
              (if rem < kMaxPlaintext then rem else kMaxPlaintext) + s'.conn.recordOverhead
              then x else y) = y := fun x y => if_neg (fun h => h h3)
          simp only [e]
          exact ih ..
        · have e : ∀ {β : Type} (x y : β), (if r.written ≠
              (if rem < kMaxPlaintext then rem else kMaxPlaintext) + s'.conn.recordOverhead
              then x else y) = x := fun x y => if_pos h3
          simp only [e]
          exact .ok rfl
      · rintro ⟨⟨s', r⟩, said⟩ q' hd
        simp only at hd ⊢
        simp only [if_pos hd.1]
        exact .ok ⟨i, hd.pre convertCode_ne "" (empty_append _).symm⟩
    · simp only [if_neg h1]
      exact .ok rfl

theorem protectQ_ends (L : Lib) (A : Allocator) (f : Nat → EvpFault) (es : Nat → ErrQueue)
    (q : ErrQueue) (s : State) (vs : List Iovec) :
    QueueEnds (texts q es) (fun r _ => r = q)
      (fun r a => ∃ i, Drained (a.1.2.status ≠ .ok) a.2.message (es i) q r)
      (protectQ L A f es q s vs) (fun t => protectT L A f t s vs) := by
  unfold protectQ protectT
  obtain ⟨s', id, buf⟩ := s.alloc A (numberBytesToProtect s (totalLen vs))
  refine .bind (fun t => t) (protectLoopQ_ends ..) ?_ ?_
  · rintro ⟨⟨s'', st, out⟩, said⟩ q' rfl
    simp only
    by_cases h1 : st ≠ .ok
    · simp only [if_pos h1]; exact .ok rfl
    · simp only [if_neg h1]; exact .ok rfl
  · rintro ⟨⟨s'', st, out⟩, said⟩ q' ⟨i, hd⟩
    simp only at hd ⊢
    simp only [if_pos hd.1]
    exact .ok ⟨i, hd⟩

theorem unprotectIntoQ_ends (L : Lib) (f : Record.Fault) (es q : ErrQueue) (s : State)
    (vs : List Iovec) (out : Iovec) :
    QueueEnds (String.join (q ++ es)) (fun r a => Kept (a.1.2.1 ≠ .ok) a.2.message f.key es q r)
      (fun r a => Drained (a.1.2.1 ≠ .ok) a.2.message es q r)
      (unprotectIntoQ L f es q s vs out) (fun t => unprotectIntoT L f t s vs out) := by
  unfold unprotectIntoQ unprotectIntoT
  by_cases h1 : numberBytesToUnprotect s (totalLen vs) = 0
  · simp only [if_pos h1]; exact .ok .same
  simp only [if_neg h1]
  refine .step fun x _ => ?_
  cases x with
  | error e => exact .ok .same
  | ok x =>
    obtain ⟨header, vs', on⟩ := x
    simp only
    refine .step fun x _ => ?_
    cases x with
    | error e => exact .ok .same
    | ok x =>
      obtain ⟨payload, vs'', on'⟩ := x
      simp only
      refine .bind (fun t => t) (crypterUnprotectQ_ends ..) ?_ ?_
      · rintro ⟨⟨s', r⟩, said⟩ q' hl
        simp only at hl ⊢
        by_cases h2 : r.code ≠ .ok
        · simp only [if_pos h2]
          exact .ok (hl.pre convertCode_ne "" (empty_append _).symm)
        · simp only [if_neg h2]
          obtain rfl := hl.ok h2
          exact .ok .same
      · rintro ⟨⟨s', r⟩, said⟩ q' hd
        simp only at hd ⊢
        simp only [if_pos hd.1]
        exact .ok (hd.pre convertCode_ne "" (empty_append _).symm)

theorem unprotectLoopQ_ends (L : Lib) (A : Allocator) (f : Nat → Record.Fault)
    (es : Nat → ErrQueue) (q : ErrQueue) (fuel i : Nat) (s : State) (vs : List Iovec)
    (on rem : Nat) (done : List (BufId × Bytes)) (log : List String) :
    QueueEnds (texts q es)
      (fun r a => ∃ i, Kept (a.1.2.status ≠ .ok) a.2.message (f i).key (es i) q r)
      (fun r a => ∃ i, Drained (a.1.2.status ≠ .ok) a.2.message (es i) q r)
      (unprotectLoopQ L A f es fuel i s vs on rem done log q)
      (fun t => unprotectLoopT L A f t fuel i s vs on rem done log) := by
  induction fuel generalizing i s vs on rem done log with
  | zero => exact .ub
  | succ fuel ih =>
    unfold unprotectLoopQ unprotectLoopT
    by_cases h1 : rem ≥ s.conn.recordOverhead
    · have e : ∀ {β : Type} (x y : β), (if rem ≥ s.conn.recordOverhead then x else y) = x :=
        fun x y => if_pos h1
      simp only [e]
      refine .step fun x _ => ?_
      cases x with
      | error e => exact .ok ⟨0, .same⟩
      | ok x =>
        obtain ⟨header, vs', on'⟩ := x
        simp only
        refine .step fun x _ => ?_
        cases x with
        | error e => exact .ok ⟨0, .same⟩
        | ok x =>
          obtain ⟨payload, vs'', on''⟩ := x
          simp only
          obtain ⟨s', id, buf⟩ := s.alloc A (payloadSize header)
          refine .bind (t₀ := texts q es) (fun t : Nat → String => t i)
            (crypterUnprotectQ_ends L (f i) (es i) q ..) ?_ ?_
          · rintro ⟨⟨s'', r⟩, said⟩ q' hl
            simp only at hl ⊢
            by_cases h2 : r.code ≠ .ok
            · simp only [if_pos h2]
              exact .ok ⟨i, hl.pre convertCode_ne _ rfl⟩
            · simp only [if_neg h2]
              obtain rfl := hl.ok h2
              exact .step fun _ _ => ih ..
          · rintro ⟨⟨s'', r⟩, said⟩ q' hd
            simp only at hd ⊢
            simp only [if_pos hd.1]
            exact .ok ⟨i, hd.pre convertCode_ne _ rfl⟩
    · have e : ∀ {β : Type} (x y : β), (if rem ≥ s.conn.recordOverhead then x else y) = y :=
        fun x y => if_neg h1
      simp only [e]
      exact .ok ⟨0, .same⟩

theorem unprotectQ_ends (L : Lib) (A : Allocator) (f : Nat → Record.Fault) (es : Nat → ErrQueue)
    (q : ErrQueue) (s : State) (vs : List Iovec) :
    QueueEnds (texts q es)
      (fun r a => ∃ i, Kept (a.1.2.status ≠ .ok) a.2.message (f i).key (es i) q r)
      (fun r a => ∃ i, Drained (a.1.2.status ≠ .ok) a.2.message (es i) q r)
      (unprotectQ L A f es q s vs) (fun t => unprotectT L A f t s vs) := by
  unfold unprotectQ unprotectT
  by_cases h1 : totalLen vs < s.conn.recordOverhead
  · have e : ∀ {β : Type} (x y : β), (if totalLen vs < s.conn.recordOverhead then x else y) = x :=
      fun x y => if_pos h1
    simp only [e]
    exact .ok ⟨0, .same⟩
  · have e : ∀ {β : Type} (x y : β), (if totalLen vs < s.conn.recordOverhead then x else y) = y :=
      fun x y => if_neg h1
    simp only [e]
    exact unprotectLoopQ_ends ..

theorem stepQ_ends (L : Lib) (A : Allocator) (es : Nat → ErrQueue) (q : ErrQueue) (s : State)
    (op : Op) :
    QueueEnds (texts q es)
      (fun r a => ∃ i, Kept (callStatus a.1.2 ≠ .ok) a.2.message (keyFault op i) (es i) q r)
      (fun r a => ∃ i, Drained (callStatus a.1.2 ≠ .ok) a.2.message (es i) q r)
      (stepQ L A es q s op) (fun t => stepT L A t s op) := by
  cases op with
  | protect f vs =>
    exact .bind (fun t => t) (protectQ_ends ..) (fun _ _ h => by cases h; exact .ok ⟨0, .same⟩)
      (fun _ _ h => .ok h)
  | protectInto f vs out =>
    exact .bind (fun t => t) (protectLoopQ_ends ..) (fun _ _ h => by cases h; exact .ok ⟨0, .same⟩)
      (fun _ _ h => .ok h)
  | unprotect f vs =>
    exact .bind (fun t => t) (unprotectQ_ends ..) (fun _ _ h => .ok h) (fun _ _ h => .ok h)
  | unprotectInto f vs out =>
    exact .bind (t₀ := texts q es) (fun t : Nat → String => t 0)
      (unprotectIntoQ_ends L f (es 0) q ..) (fun _ _ h => .ok ⟨0, h⟩)
      (fun _ _ h => .ok ⟨0, h⟩)

theorem createQ_ends (L : Lib) (fIn fOut : KeyFault) (lateIn lateOut : Bool)
    (esIn esOut q : ErrQueue) (o : Options) :
    QueueEnds (String.join (q ++ esIn), String.join (q ++ esOut))
      (fun r x => KeptKeys fIn esIn q r x ∨ KeptKeys fOut esOut q r x)
      (fun r x => DrainedKeys fIn esIn q r x ∨ DrainedKeys fOut esOut q r x)
      (createQ L fIn fOut lateIn lateOut esIn esOut q o)
      (fun t => createT L fIn fOut ⟨t.1, lateIn⟩ ⟨t.2, lateOut⟩ o) := by
  unfold createQ createT
  by_cases h1 : (!o.hasAllocator || !o.hasDestroy || !o.crypter.hasLogger) = true
  · simp only [if_pos h1]; exact .ok (.inl (.same _ nofun))
  simp only [if_neg h1]
  refine .bind (t₀ := (String.join (q ++ esIn), String.join (q ++ esOut))) (fun t => t)
    (Record.createQ_ends L fIn fOut lateIn lateOut esIn esOut q _) ?_ ?_
  · intro x r hl
    rcases hl with hl | hl
    · cases hl with
      | derivation m h1 h2 => exact .ok (.inl (.derivation m h1 h2))
      | same _ hi =>
        cases x with
        | error e => exact .ok (.inl (.same _ (by rintro m ⟨⟩; exact hi m rfl)))
        | ok c => exact .ok (.inl (.same _ nofun))
    · cases hl with
      | derivation m h1 h2 => exact .ok (.inr (.derivation m h1 h2))
      | same _ hi =>
        cases x with
        | error e => exact .ok (.inl (.same _ (by rintro m ⟨⟩; exact hi m rfl)))
        | ok c => exact .ok (.inl (.same _ nofun))
  · rintro x r (⟨h1, h2, m, rfl, h3⟩ | ⟨h1, h2, m, rfl, h3⟩)
    · exact .ok (.inl ⟨h1, h2, m, rfl, h3⟩)
    · exact .ok (.inr ⟨h1, h2, m, rfl, h3⟩)

end Frame

namespace Proxy

/-- The result of making a frame protector, with its message. -/
def asResult (a : (State × Except StatusCode Frame.State) × Said) :
    Except (StatusCode × String) Frame.State :=
  match a.1.2 with
  | .ok p => .ok p
  | .error c => .error (c, a.2.message)

theorem createFrameProtectorQ_ends (L : Lib) (fIn fOut : KeyFault) (lateIn lateOut : Bool)
    (esIn esOut q : ErrQueue) (s : State) :
    QueueEnds (String.join (q ++ esIn), String.join (q ++ esOut))
      (fun r a => KeptKeys fIn esIn q r (asResult a) ∨ KeptKeys fOut esOut q r (asResult a))
      (fun r a => DrainedKeys fIn esIn q r (asResult a) ∨ DrainedKeys fOut esOut q r (asResult a))
      (createFrameProtectorQ L fIn fOut lateIn lateOut esIn esOut q s)
      (fun t => createFrameProtectorT L fIn fOut ⟨t.1, lateIn⟩ ⟨t.2, lateOut⟩ s) := by
  unfold createFrameProtectorQ createFrameProtectorT
  by_cases h1 : (!s.finished) = true
  · simp only [if_pos h1]; exact .ok (.inl (.same _ nofun))
  simp only [if_neg h1]
  cases s.result with
  | none => exact .ub
  | some r =>
    simp only
    refine .bind (t₀ := (String.join (q ++ esIn), String.join (q ++ esOut))) (fun t => t)
      (Frame.createQ_ends L fIn fOut lateIn lateOut esIn esOut q _) ?_ ?_
    · intro x r hl
      cases x with
      | error e => exact .ok hl
      | ok p => exact .ok hl
    · intro x r hl
      cases x with
      | error e => exact .ok hl
      | ok p => exact .ok hl

end Proxy
end S2A
