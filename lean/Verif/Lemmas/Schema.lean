import Verif.Lemmas.WireGrammar
import Verif.Lemmas.Proto
import Verif.Spec.Schema
/-
The readers and writers of Model/Proto.lean agree with Spec/Schema.lean.
-/
namespace S2A
open Proto Wire
open Spec

theorem foldl_last {α β : Type} (p : α → Option β) (d : β) (l : List α) :
    l.foldl (fun b a => (p a).getD b) d = (l.filterMap p).getLast?.getD d := by
  induction l generalizing d with
  | nil => rfl
  | cons a l ih =>
    rw [List.foldl_cons, ih, List.filterMap_cons]
    cases p a with
    | none => rfl
    | some b =>
      simp only [Option.getD_some, List.getLast?_cons]

theorem lastNumber_eq (i : Nat) (fs : List Field) : Spec.lastNumber i fs = getU64 i fs := by
  unfold Spec.lastNumber getU64 varints
  rw [← foldl_last]
  congr
  funext n f
  obtain ⟨j, v⟩ := f
  cases v <;> simp only [Val.asVarint, ite_self, Option.getD_none]
  split <;> rfl

theorem lastBytes_eq (i : Nat) (fs : List Field) : Spec.lastBytes i fs = getBytes i fs := by
  unfold Spec.lastBytes getBytes lens
  rw [← foldl_last]
  congr
  funext n f
  obtain ⟨j, v⟩ := f
  cases v <;> simp only [Val.asLen, ite_self, Option.getD_none]
  split <;> rfl

theorem allBytes_eq (i : Nat) (fs : List Field) : allBytes i fs = lens i fs := by
  induction fs with
  | nil => rfl
  | cons f fs ih =>
    obtain ⟨j, v⟩ := f
    unfold lens at ih ⊢
    rw [List.filterMap_cons]
    cases v <;> simp only [Val.asLen, ite_self, allBytes, ih]
    split <;> rfl

theorem strings_iff (utf8 : Bytes → Bool) (is : List Nat) (fs : List Field) :
    Strings utf8 is fs ↔ checkStrings utf8 is fs = true := by
  simp only [Strings, checkStrings, List.all_eq_true, allBytes_eq]

theorem mapM_isSome {α β : Type} (p : α → Option β) (l : List α) :
    (∃ r, l.mapM p = some r) ↔ ∀ a ∈ l, ∃ b, p a = some b := by
  induction l with
  | nil => simp
  | cons a l ih =>
    simp only [List.mapM_cons, Option.bind_eq_bind, Option.bind_eq_some_iff, List.mem_cons,
      forall_eq_or_imp, ← ih]
    constructor
    · rintro ⟨r, b, h1, r', h2, _⟩
      exact ⟨⟨b, h1⟩, r', h2⟩
    · rintro ⟨⟨b, h1⟩, r', h2⟩
      exact ⟨_, b, h1, r', h2, rfl⟩

theorem sub_iff {α : Type} {P : Bytes → α → Prop} {parse : Bytes → Option α}
    (hp : ∀ b m, parse b = some m ↔ P b m) (i : Nat) (fs : List Field) (o : Option α) :
    getSub parse i fs = some o ↔ OptSub P i fs o := by
  unfold getSub
  rw [← allBytes_eq]
  cases hl : allBytes i fs with
  | nil => cases o <;> simp [OptSub, hl]
  | cons b bs =>
    simp only [Option.bind_eq_bind, Option.bind_eq_some_iff]
    cases o with
    | none =>
      simp only [OptSub, hl]
      constructor
      · rintro ⟨_, _, m, _, h⟩; cases h
      · intro h; cases h
    | some m =>
      simp only [OptSub, hl, ← hp, ← mapM_isSome]
      constructor
      · rintro ⟨r, h1, m', h2, h3⟩
        cases h3
        exact ⟨by simp, ⟨r, h1⟩, h2⟩
      · rintro ⟨_, ⟨r, h1⟩, h2⟩
        exact ⟨r, h1, m, h2, rfl⟩

theorem each_iff {α β : Type} {P : α → β → Prop} {parse : α → Option β}
    (hp : ∀ b m, parse b = some m ↔ P b m) (l : List α) (r : List β) :
    l.mapM parse = some r ↔ Each P l r := by
  induction l generalizing r with
  | nil =>
    constructor
    · intro h; cases h; exact .nil
    · intro h; cases h; rfl
  | cons a l ih =>
    simp only [List.mapM_cons, Option.bind_eq_bind, Option.bind_eq_some_iff]
    constructor
    · rintro ⟨b, h1, bs, h2, h3⟩
      cases h3
      exact .cons ((hp _ _).1 h1) ((ih _).1 h2)
    · intro h
      cases h with
      | cons h1 h2 => exact ⟨_, (hp _ _).2 h1, _, (ih _).2 h2, rfl⟩

theorem unpack_iff {fuel : Nat} {bs : Bytes} {ns : List Nat} (hf : bs.length ≤ fuel) :
    unpack fuel bs = some ns ↔ Varints bs ns := by
  induction fuel generalizing bs ns with
  | zero =>
    have : bs = [] := by cases bs with | nil => rfl | cons => simp at hf
    subst this
    constructor
    · intro h; simp only [unpack, Option.some.injEq] at h; subst h; exact .nil
    · intro h
      generalize hb : ([] : Bytes) = b at h
      cases h with
      | nil => rfl
      | cons hv _ => exact absurd (List.append_eq_nil_iff.1 hb.symm).1 (IsVarint.ne_nil hv)
  | succ fuel ih =>
    constructor
    · intro h
      cases bs with
      | nil => simp only [unpack, Option.some.injEq] at h; subst h; exact .nil
      | cons b bs =>
        unfold unpack at h
        cases hr : readVarint 10 (b :: bs) with
        | none => rw [hr] at h; cases h
        | some x =>
          obtain ⟨n, r⟩ := x
          rw [hr] at h
          simp only [Option.map_eq_some_iff] at h
          obtain ⟨ms, h1, rfl⟩ := h
          obtain ⟨v, e, hv, hn⟩ := readVarint_iff.1 hr
          have hne := IsVarint.ne_nil hv
          have hvl := List.length_pos_iff.2 hne
          have hlen := congrArg List.length e
          rw [List.length_append] at hlen
          rw [e]
          subst hn
          exact .cons hv ((ih (by omega)).1 h1)
    · intro h
      cases h with
      | nil => rfl
      | @cons v r ns hv hr =>
        have hne := IsVarint.ne_nil hv
        have hvl := List.length_pos_iff.2 hne
        rw [List.length_append] at hf
        have h1 := (ih (bs := r) (by omega)).2 hr
        have h2 := (readVarint_iff (bs := v ++ r)).2 ⟨v, rfl, hv, rfl⟩
        cases hx : v ++ r with
        | nil => exact absurd (List.append_eq_nil_iff.1 hx).1 hne
        | cons b bs =>
          unfold unpack
          rw [← hx, h2]
          simp only [h1, Option.map_some]

theorem elems_iff (i : Nat) (fs : List Field) (ns : List Nat) :
    getRepeated i fs = some ns ↔ Enums i fs ns := by
  unfold getRepeated
  induction fs generalizing ns with
  | nil =>
    constructor
    · intro h
      simp at h
      subst h
      exact .nil
    · intro h; cases h; rfl
  | cons f fs ih =>
    simp only [List.mapM_cons, Option.bind_eq_bind, Option.bind_eq_some_iff] at ih ⊢
    obtain ⟨j, v⟩ := f
    constructor
    · rintro ⟨ls, ⟨l, h1, ls', h2, h3⟩, h4⟩
      have e3 := Option.some.inj h3
      have e4 := Option.some.inj h4
      subst e3 e4
      have hr := (ih _).1 ⟨ls', h2, rfl⟩
      unfold elems at h1
      simp only at h1
      by_cases hj : j = i
      · subst hj
        rw [if_pos rfl] at h1
        cases v with
        | varint n =>
          simp only [Option.some.injEq] at h1
          subst h1
          exact .one hr
        | len b =>
          simp only [List.flatten_cons, List.map_append]
          exact .packed ((unpack_iff (Nat.le_refl _)).1 h1) hr
        | fixed64 b =>
          simp only [Option.some.injEq] at h1
          subst h1
          exact .other (fun _ => ⟨nofun, nofun⟩) hr
        | fixed32 b =>
          simp only [Option.some.injEq] at h1
          subst h1
          exact .other (fun _ => ⟨nofun, nofun⟩) hr
      · rw [if_neg hj] at h1
        simp only [Option.some.injEq] at h1
        subst h1
        exact .other (fun h => absurd h hj) hr
    · intro h
      cases h with
      | @packed b _ ms ns hb hr =>
        obtain ⟨ls, h2, h3⟩ := (ih _).2 hr
        refine ⟨ms :: ls, ⟨ms, ?_, ls, h2, rfl⟩, ?_⟩
        · unfold elems
          simp only [if_true]
          exact (unpack_iff (Nat.le_refl _)).2 hb
        · have e3 := Option.some.inj h3
          subst e3
          simp
      | @one n _ ns hr =>
        obtain ⟨ls, h2, h3⟩ := (ih _).2 hr
        refine ⟨[n] :: ls, ⟨[n], ?_, ls, h2, rfl⟩, ?_⟩
        · unfold elems
          simp only [if_true]
        · have e3 := Option.some.inj h3
          subst e3
          simp
      | other hf hr =>
        obtain ⟨ls, h2, h3⟩ := (ih _).2 hr
        refine ⟨[] :: ls, ⟨[], ?_, ls, h2, rfl⟩, ?_⟩
        · unfold elems
          simp only
          by_cases hj : j = i
          · rw [if_pos hj]
            obtain ⟨h4, h5⟩ := hf hj
            cases v with
            | varint n => exact absurd rfl (h5 n)
            | len b => exact absurd rfl (h4 b)
            | fixed64 b => rfl
            | fixed32 b => rfl
          · rw [if_neg hj]
        · have e3 := Option.some.inj h3
          subst e3
          simp

theorem subs_iff {α : Type} {P : Bytes → α → Prop} {parse : Bytes → Option α}
    (hp : ∀ b m, parse b = some m ↔ P b m) (i : Nat) (fs : List Field) (r : List α) :
    getSubs parse i fs = some r ↔ Each P (allBytes i fs) r := by
  unfold getSubs
  rw [← allBytes_eq]
  exact each_iff hp _ _

theorem lastIdentity_eq (fs : List Field) :
    lastIdentity fs = (fs.filterMap PIdentity.ofField).getLast?.getD .unset := by
  unfold lastIdentity
  rw [← foldl_last]
  congr
  funext i f
  split
  · rfl
  · rfl
  · rfl
  · next h1 h2 h4 =>
    unfold PIdentity.ofField
    split
    · next s => exact absurd rfl (h1 s)
    · next s => exact absurd rfl (h2 s)
    · next s => exact absurd rfl (h4 s)
    · rfl

/-- A reader that decodes, checks the strings, then reads the fields. -/
theorem checked_iff {α : Type} (utf8 : Bytes → Bool) (is : List Nat) (bs : Bytes)
    (k : List Field → Option α) (m : α) :
    (decode bs >>= fun fs => if !checkStrings utf8 is fs then none else k fs) = some m ↔
      ∃ fs, WireMessage bs fs ∧ Strings utf8 is fs ∧ k fs = some m := by
  simp only [Option.bind_eq_bind, Option.bind_eq_some_iff, decode_iff, strings_iff]
  refine exists_congr fun fs => and_congr_right fun _ => ?_
  cases checkStrings utf8 is fs <;> simp

theorem entries_iff (utf8 : Bytes → Bool) (i : Nat) (fs : List Field) :
    StringMap utf8 i fs ↔ checkEntries utf8 i fs = true := by
  simp only [StringMap, checkEntries, List.all_eq_true, allBytes_eq]
  refine forall_congr' fun b => imp_congr_right fun _ => ?_
  simp only [← decode_iff, strings_iff]
  cases decode b <;> simp

theorem identity_iff (utf8 : Bytes → Bool) (bs : Bytes) (m : PIdentity) :
    PIdentity.parse utf8 bs = some m ↔ IdentityMsg utf8 bs m := by
  unfold PIdentity.parse IdentityMsg
  rw [checked_iff]
  refine exists_congr fun fs => and_congr_right fun _ => and_congr_right fun _ => ?_
  rw [entries_iff, lastIdentity_eq]
  cases checkEntries utf8 3 fs <;> simp [eq_comm]

theorem mechanism_iff (utf8 : Bytes → Bool) (bs : Bytes) (m : AuthMechanism) :
    AuthMechanism.parse utf8 bs = some m ↔ MechanismMsg utf8 bs m := by
  unfold AuthMechanism.parse
  rw [checked_iff]
  simp only [Option.bind_eq_bind, Option.bind_eq_some_iff, sub_iff (identity_iff utf8),
    Option.some.injEq, ← allBytes_eq]
  constructor
  · rintro ⟨fs, h1, h2, i, h3, rfl⟩
    exact ⟨fs, h1, h2, h3, rfl⟩
  · rintro ⟨fs, h1, h2, h3, h4⟩
    exact ⟨fs, h1, h2, _, h3, by rw [← h4]⟩

theorem clientStart_iff (utf8 : Bytes → Bool) (bs : Bytes) (m : ClientStart) :
    ClientStart.parse utf8 bs = some m ↔ ClientStartMsg utf8 bs m := by
  unfold ClientStart.parse
  rw [checked_iff]
  simp only [Option.bind_eq_bind, Option.bind_eq_some_iff, sub_iff (identity_iff utf8),
    subs_iff (identity_iff utf8), elems_iff, Option.some.injEq, ← allBytes_eq, getU32,
    ← lastNumber_eq, ← lastBytes_eq]
  constructor
  · rintro ⟨fs, h1, h2, cs, h3, ts, h4, li, h5, rfl⟩
    exact ⟨fs, h1, h2, rfl, rfl, rfl, h3, h4, h5, rfl⟩
  · rintro ⟨fs, h1, h2, e1, e2, e3, h3, h4, h5, e4⟩
    exact ⟨fs, h1, h2, _, h3, _, h4, _, h5, by rw [← e1, ← e2, ← e3, ← e4]⟩

theorem serverStart_iff (utf8 : Bytes → Bool) (bs : Bytes) (m : ServerStart) :
    ServerStart.parse utf8 bs = some m ↔ ServerStartMsg utf8 bs m := by
  unfold ServerStart.parse
  rw [checked_iff]
  simp only [Option.bind_eq_bind, Option.bind_eq_some_iff,
    subs_iff (identity_iff utf8), elems_iff, Option.some.injEq, ← allBytes_eq, getU32,
    ← lastNumber_eq, ← lastBytes_eq]
  constructor
  · rintro ⟨fs, h1, h2, cs, h3, ts, h4, rfl⟩
    exact ⟨fs, h1, h2, rfl, rfl, rfl, h3, h4, rfl⟩
  · rintro ⟨fs, h1, h2, e1, e2, e3, h3, h4, e4⟩
    exact ⟨fs, h1, h2, _, h3, _, h4, by rw [← e1, ← e2, ← e3, ← e4]⟩

theorem next_iff (bs : Bytes) (m : NextReq) :
    NextReq.parse bs = some m ↔ NextMsg bs m := by
  unfold NextReq.parse
  simp only [Option.bind_eq_bind, Option.bind_eq_some_iff, decode_iff, Option.some.injEq,
    ← lastBytes_eq]
  constructor
  · rintro ⟨fs, h1, rfl⟩
    exact ⟨fs, h1, rfl⟩
  · rintro ⟨fs, h1, h2⟩
    exact ⟨fs, h1, by rw [← h2]⟩

theorem ticket_iff (utf8 : Bytes → Bool) (bs : Bytes) (m : TicketReq) :
    TicketReq.parse utf8 bs = some m ↔ TicketMsg utf8 bs m := by
  unfold TicketReq.parse
  simp only [Option.bind_eq_bind, Option.bind_eq_some_iff, decode_iff,
    sub_iff (identity_iff utf8), Option.some.injEq, ← allBytes_eq, ← lastNumber_eq]
  constructor
  · rintro ⟨fs, h1, li, h2, rfl⟩
    exact ⟨fs, h1, rfl, rfl, h2⟩
  · rintro ⟨fs, h1, e1, e2, h2⟩
    exact ⟨fs, h1, _, h2, by rw [← e1, ← e2]⟩

theorem getBool_iff (i : Nat) (fs : List Field) (b : Bool) :
    getBool i fs = b ↔ (b = true ↔ lastNumber i fs ≠ 0) := by
  unfold getBool
  rw [lastNumber_eq]
  cases b <;> simp

theorem state_iff (bs : Bytes) (m : SessionState) :
    SessionState.parse bs = some m ↔ StateMsg bs m := by
  unfold SessionState.parse
  simp only [Option.bind_eq_bind, Option.bind_eq_some_iff, decode_iff, Option.some.injEq, getU32,
    ← lastNumber_eq, ← lastBytes_eq]
  constructor
  · rintro ⟨fs, h1, rfl⟩
    exact ⟨fs, h1, rfl, rfl, rfl, rfl, rfl, rfl, rfl, (getBool_iff _ _ _).1 rfl⟩
  · rintro ⟨fs, h1, e1, e2, e3, e4, e5, e6, e7, e8⟩
    exact ⟨fs, h1, by rw [← e1, ← e2, ← e3, ← e4, ← e5, ← e6, ← e7, (getBool_iff _ _ _).2 e8]⟩

theorem result_iff (utf8 : Bytes → Bool) (bs : Bytes) (m : SessionResult) :
    SessionResult.parse utf8 bs = some m ↔ ResultMsg utf8 bs m := by
  unfold SessionResult.parse
  rw [checked_iff]
  simp only [Option.bind_eq_bind, Option.bind_eq_some_iff, sub_iff (identity_iff utf8),
    sub_iff state_iff, Option.some.injEq, ← lastBytes_eq]
  constructor
  · rintro ⟨fs, h1, h2, st, h3, p, h4, l, h5, rfl⟩
    exact ⟨fs, h1, h2, rfl, h3, h4, h5, rfl, rfl⟩
  · rintro ⟨fs, h1, h2, e1, h3, h4, h5, e2, e3⟩
    exact ⟨fs, h1, h2, _, h3, _, h4, _, h5, by rw [← e1, ← e2, ← e3]⟩

theorem status_iff (utf8 : Bytes → Bool) (bs : Bytes) (m : SessionStatus) :
    SessionStatus.parse utf8 bs = some m ↔ StatusMsg utf8 bs m := by
  unfold SessionStatus.parse
  rw [checked_iff]
  simp only [Option.some.injEq, getU32, ← lastNumber_eq, ← lastBytes_eq]
  constructor
  · rintro ⟨fs, h1, h2, rfl⟩
    exact ⟨fs, h1, h2, rfl, rfl⟩
  · rintro ⟨fs, h1, h2, e1, e2⟩
    exact ⟨fs, h1, h2, by rw [← e1, ← e2]⟩

theorem response_iff (utf8 : Bytes → Bool) (bs : Bytes) (m : SessionResp) :
    SessionResp.parse utf8 bs = some m ↔ ResponseMsg utf8 bs m := by
  unfold SessionResp.parse
  simp only [Option.bind_eq_bind, Option.bind_eq_some_iff, decode_iff,
    sub_iff (identity_iff utf8), sub_iff (result_iff utf8), sub_iff (status_iff utf8),
    Option.some.injEq, getU32, ← lastNumber_eq, ← lastBytes_eq]
  constructor
  · rintro ⟨fs, h1, li, h2, r, h3, st, h4, rfl⟩
    exact ⟨fs, h1, h2, rfl, rfl, h3, h4⟩
  · rintro ⟨fs, h1, h2, e1, e2, h3, h4⟩
    exact ⟨fs, h1, _, h2, _, h3, _, h4, by rw [← e1, ← e2]⟩

theorem context_iff (utf8 : Bytes → Bool) (bs : Bytes) (m : PContext) :
    PContext.parse utf8 bs = some m ↔ ContextMsg utf8 bs m := by
  unfold PContext.parse
  rw [checked_iff]
  simp only [Option.bind_eq_bind, Option.bind_eq_some_iff, sub_iff (identity_iff utf8),
    Option.some.injEq, getU32, ← lastNumber_eq, ← lastBytes_eq]
  constructor
  · rintro ⟨fs, h1, h2, p, h3, l, h4, rfl⟩
    exact ⟨fs, h1, h2, rfl, rfl, rfl, h3, h4, rfl, rfl, (getBool_iff _ _ _).1 rfl⟩
  · rintro ⟨fs, h1, h2, e1, e2, e3, h3, h4, e4, e5, e6⟩
    exact ⟨fs, h1, h2, _, h3, _, h4,
      by rw [← e1, ← e2, ← e3, ← e4, ← e5, (getBool_iff _ _ _).2 e6]⟩

theorem kind_iff (utf8 : Bytes → Bool) (f : Field) (k : ReqKind) :
    ReqKind.ofField utf8 f = some (some k) ↔ KindMsg utf8 f k := by
  constructor
  · intro h
    unfold ReqKind.ofField at h
    split at h <;> simp only [Option.map_eq_some_iff, Option.some.injEq, reduceCtorEq] at h
    all_goals obtain ⟨m, h1, rfl⟩ := h
    · exact .clientStart ((clientStart_iff _ _ _).1 h1)
    · exact .serverStart ((serverStart_iff _ _ _).1 h1)
    · exact .next ((next_iff _ _).1 h1)
    · exact .resumptionTicket ((ticket_iff _ _ _).1 h1)
  · intro h
    cases h with
    | clientStart h => simp [ReqKind.ofField, (clientStart_iff _ _ _).2 h]
    | serverStart h => simp [ReqKind.ofField, (serverStart_iff _ _ _).2 h]
    | next h => simp [ReqKind.ofField, (next_iff _ _).2 h]
    | resumptionTicket h => simp [ReqKind.ofField, (ticket_iff _ _ _).2 h]

theorem lens_all (i : Nat) (ms : List Bytes) :
    lens i (ms.map fun b => ((i, .len b) : Field)) = ms := by
  unfold lens
  induction ms with
  | nil => rfl
  | cons b ms ih => rw [List.map_cons, List.filterMap_cons, ih]; simp [Val.asLen]

theorem mechs_kinds (utf8 : Bytes → Bool) (ms : List Bytes) :
    (ms.map fun b => ((5, .len b) : Field)).mapM (ReqKind.ofField utf8) =
      some (ms.map fun _ => none) := by
  induction ms with
  | nil => rfl
  | cons b ms ih => rw [List.map_cons, List.mapM_cons, ih]; rfl

theorem mechs_none (ms : List Bytes) :
    (ms.map fun _ => (none : Option ReqKind)).filterMap id = [] := by
  induction ms with
  | nil => rfl
  | cons b ms ih => rw [List.map_cons, List.filterMap_cons]; exact ih

/-- A request that is as the schema says is read as that request. -/
theorem request_read {utf8 : Bytes → Bool} {bs : Bytes} {m : SessionReq}
    (h : RequestMsg utf8 bs m) : SessionReq.parse utf8 bs = some m := by
  obtain ⟨kind, ams⟩ := m
  obtain ⟨f, ms, h1, h2, h3⟩ := h
  simp only at h2 h3
  have hk := (kind_iff _ _ _).2 h2
  unfold SessionReq.parse
  rw [decode_iff.2 h1]
  have hl : lens 5 (f :: ms.map fun b => ((5, .len b) : Field)) = ms := by
    rw [lens, List.filterMap_cons, ← lens, lens_all]
    cases h2 <;> simp
  simp only [Option.bind_eq_bind, Option.bind_some, List.mapM_cons, hk, mechs_kinds, getSubs, hl,
    (each_iff (mechanism_iff utf8) _ _).2 h3]
  show some (SessionReq.mk ((List.filterMap id (some kind :: _)).getLast?.getD .unset) ams) = _
  rw [List.filterMap_cons, mechs_none]
  rfl

/-- If the fields of a request are written one after the other, what is read is as the schema
says. -/
theorem request_written {utf8 : Bytes → Bool} {bs : Bytes} {f : Field} {ms : List Bytes}
    {m : SessionReq} (hd : decode bs = some (f :: ms.map fun b => (5, .len b)))
    (hf : f.1 ≤ 4) (hk : m.kind ≠ .unset) (h : SessionReq.parse utf8 bs = some m) :
    RequestMsg utf8 bs m := by
  unfold SessionReq.parse at h
  rw [hd] at h
  have hl : lens 5 (f :: ms.map fun b => ((5, .len b) : Field)) = ms := by
    rw [lens, List.filterMap_cons, ← lens, lens_all]
    obtain ⟨j, v⟩ := f
    have : j ≠ 5 := by simp only at hf; omega
    simp [this]
  simp only [Option.bind_eq_bind, Option.bind_some, List.mapM_cons, mechs_kinds, getSubs, hl,
    Option.bind_eq_some_iff] at h
  obtain ⟨ks, ⟨k, h1, h3⟩, ams, h4, h5⟩ := h
  have e3 := Option.some.inj h3
  subst e3
  have e5 := Option.some.inj h5
  subst e5
  refine ⟨f, ms, decode_iff.1 hd, ?_, (each_iff (mechanism_iff utf8) _ _).1 h4⟩
  cases k with
  | none =>
    refine absurd ?_ hk
    show (List.filterMap id (none :: _)).getLast?.getD .unset = ReqKind.unset
    rw [List.filterMap_cons]
    simp only [id, mechs_none]
    rfl
  | some k =>
    have e : (List.filterMap id (some k :: ms.map fun _ => none)).getLast?.getD .unset = k := by
      rw [List.filterMap_cons]
      simp only [id, mechs_none]
      rfl
    simp only [e]
    exact (kind_iff _ _ _).1 h1

end S2A
