import Verif.Spec.Views
import Verif.Lemmas.Base
namespace S2A.Views
open S2A.Proto S2A.Util S2A.Views.Spec

/-- A view refers to the arena or to a buffer with the property. -/
def View.In (P : Block → Prop) : View → Prop
  | .own _ => True
  | .of b _ => P b

def IdV.In (P : Block → Prop) : IdV → Prop
  | .unset => True
  | .spiffeId v => v.In P
  | .hostname v => v.In P
  | .uid v => v.In P

/-- The view the identity has of a string. -/
def IdV.Has (w : View) : IdV → Prop
  | .unset => False
  | .spiffeId v => v = w
  | .hostname v => v = w
  | .uid v => v = w

theorem View.read_set {m : Mem} {b : Block} {o : Option Bytes} {v : View}
    (h : v.In (· ≠ b)) : v.read (m.set b o) = v.read m := by
  cases v with
  | own d => rfl
  | of c n =>
    have hc : c ≠ b := h
    simp [View.read, Mem.set, hc]

theorem IdV.read_set {m : Mem} {b : Block} {o : Option Bytes} {v : IdV}
    (h : v.In (· ≠ b)) : v.read (m.set b o) = v.read m := by
  cases v with
  | unset => rfl
  | spiffeId v => simp only [IdV.read, View.read_set (v := v) h]
  | hostname v => simp only [IdV.read, View.read_set (v := v) h]
  | uid v => simp only [IdV.read, View.read_set (v := v) h]

theorem mapM_read_congr {m m' : Mem} : ∀ {vs : List View},
    (∀ v ∈ vs, View.read m v = View.read m' v) →
    vs.mapM (View.read m) = vs.mapM (View.read m')
  | [], _ => rfl
  | v :: vs, h => by
    rw [List.mapM_cons, List.mapM_cons, h v (List.mem_cons_self ..),
      mapM_read_congr fun w hw => h w (List.mem_cons_of_mem _ hw)]

theorem mapM_ok_append {α β : Type} {f : α → Exec β} : ∀ {xs ys : List α} {as bs : List β},
    xs.mapM f = .ok as → ys.mapM f = .ok bs → (xs ++ ys).mapM f = .ok (as ++ bs)
  | [], ys, as, bs, hx, hy => by
    have : as = [] := by
      have : (Except.ok [] : Exec (List β)) = .ok as := hx
      injection this with h; exact h.symm
    subst this; simpa using hy
  | x :: xs, ys, as, bs, hx, hy => by
    rw [List.cons_append, List.mapM_cons] at *
    cases hfx : f x with
    | error u => rw [hfx] at hx; cases hx
    | ok a =>
      rw [hfx] at hx
      cases hxs : xs.mapM f with
      | error u => simp only [hxs] at hx; cases hx
      | ok as' =>
        simp only [hxs] at hx
        have : as = a :: as' := by
          have : (Except.ok (a :: as') : Exec (List β)) = .ok as := hx
          injection this with h; exact h.symm
        subst this
        have ih := mapM_ok_append hxs hy
        show (Except.ok a >>= fun b => (xs ++ ys).mapM f >>= fun c => pure (b :: c)) = _
        rw [ih]; rfl

theorem takeWhile_zero (s : Bytes) : (s ++ [0]).takeWhile (· ≠ 0) = cstr s := by
  induction s with
  | nil => simp [cstr]
  | cons a s ih =>
    unfold cstr at *
    by_cases h : a = 0
    · simp [h]
    · simp [h] at ih ⊢
      exact ih

theorem cstr_length_le (s : Bytes) : (cstr s).length ≤ s.length := by
  unfold cstr; exact (List.takeWhile_prefix _).length_le

theorem take_cstr (s : Bytes) : (s ++ [0]).take (cstr s).length = cstr s := by
  have h : cstr s <+: s ++ [0] := by
    have h1 : cstr s <+: s := List.takeWhile_prefix _
    exact h1.trans (List.prefix_append _ _)
  exact (List.prefix_iff_eq_take.mp h).symm

theorem str_of {m : Mem} {b : Block} {s : Bytes} (h : m b = some (s ++ [0])) : str m b = s := by
  simp [str, h]

theorem makez_alive {m : Mem} {b : Block} (h : Alive m b) :
    makez m b = .ok (.of b (cstr (str m b)).length) := by
  obtain ⟨s, hs⟩ := h
  rw [str_of hs]
  unfold makez
  rw [hs]
  have : ((s ++ [0]).all fun x => decide (x ≠ 0)) = false := by simp
  simp only [this, takeWhile_zero]
  rfl

theorem read_cstr {m : Mem} {b : Block} (h : Alive m b) :
    View.read m (.of b (cstr (str m b)).length) = .ok (cstr (str m b)) := by
  obtain ⟨s, hs⟩ := h
  rw [str_of hs]
  simp only [View.read]
  by_cases h0 : (cstr s).length = 0
  · rw [if_pos h0, List.length_eq_zero_iff.mp h0]
  · rw [if_neg h0, hs]
    have := cstr_length_le s
    simp only [List.length_append, List.length_cons, List.length_nil, take_cstr]
    rw [if_pos (by omega)]

theorem makeTicket_alive {m : Mem} {b : Block} (h : Alive m b) :
    makeTicket m (some b) = .ok (.of b (str m b).length) := by
  obtain ⟨s, hs⟩ := h
  rw [str_of hs]
  simp [makeTicket, hs]

theorem read_ticket {m : Mem} {b : Block} (h : Alive m b) :
    View.read m (.of b (str m b).length) = .ok (str m b) := by
  obtain ⟨s, hs⟩ := h
  rw [str_of hs]
  simp only [View.read]
  by_cases h0 : s.length = 0
  · rw [if_pos h0, List.length_eq_zero_iff.mp h0]
  · rw [if_neg h0, hs]
    simp

/-- The views of the tickets. -/
def ticketViews (m : Mem) (ts : List (Option Block)) : List View :=
  ts.map fun t => .of (t.getD 0) (str m (t.getD 0)).length

theorem mapM_makeTicket {m : Mem} : ∀ {ts : List (Option Block)},
    (∀ t ∈ ts, ∃ b, t = some b ∧ Alive m b) →
    ts.mapM (makeTicket m) = .ok (ticketViews m ts)
  | [], _ => rfl
  | t :: ts, h => by
    obtain ⟨b, rfl, hb⟩ := h t (List.mem_cons_self ..)
    rw [List.mapM_cons, makeTicket_alive hb,
      mapM_makeTicket fun u hu => h u (List.mem_cons_of_mem _ hu)]
    rfl

theorem mapM_readTicket {m : Mem} : ∀ {ts : List (Option Block)},
    (∀ t ∈ ts, ∃ b, t = some b ∧ Alive m b) →
    (ticketViews m ts).mapM (View.read m) = .ok (ts.map fun t => str m (t.getD 0))
  | [], _ => rfl
  | t :: ts, h => by
    obtain ⟨b, rfl, hb⟩ := h t (List.mem_cons_self ..)
    have ih := mapM_readTicket fun u hu => h u (List.mem_cons_of_mem _ hu)
    rw [ticketViews] at *
    rw [List.map_cons, List.mapM_cons]
    simp only [Option.getD_some, read_ticket hb, ih]
    rfl

/-- The request with views says `q` in the memory, and its views are held. -/
structure Rel (m : Mem) (h : Held) (r : ReqV) (q : SessionReq) : Prop where
  auth : r.authMechanisms = q.authMechanisms
  kind : match r.kind with
    | .other k => (q.kind = k ∧ ∀ t, k ≠ .resumptionTicket t) ∧
        h.tickets = [] ∧ h.identity = none
    | .ticket tv => ∃ t, q.kind = .resumptionTicket t ∧
        tv.inBytes.mapM (View.read m) = .ok t.inBytes ∧ tv.connectionId = t.connectionId ∧
        readId m tv.localIdentity = .ok t.localIdentity ∧
        (∀ v ∈ tv.inBytes, v.In (· ∈ h.tickets)) ∧
        (∀ i ∈ tv.localIdentity, i.In fun b => h.identity = some b) ∧
        (∀ b ∈ h.tickets, .of b (str m b).length ∈ tv.inBytes) ∧
        (∀ b, h.identity = some b →
          ∃ i ∈ tv.localIdentity, i.Has (.of b (cstr (str m b)).length))

theorem mapM_own (m : Mem) : ∀ l : List Bytes, (l.map View.own).mapM (View.read m) = .ok l
  | [] => rfl
  | a :: l => by
    rw [List.map_cons, List.mapM_cons, mapM_own m l]; rfl

theorem rel_ofReq (m : Mem) (q : SessionReq) : Rel m .nothing (.ofReq q) q := by
  obtain ⟨k, a⟩ := q
  cases k with
  | resumptionTicket t =>
    refine ⟨rfl, t, rfl, mapM_own m _, rfl, ?_, ?_, ?_, fun b hb => absurd hb (by simp [Held.nothing]),
      fun b hb => absurd hb (by simp [Held.nothing])⟩
    · cases hl : t.localIdentity with
      | none => rfl
      | some i => cases i <;> rfl
    · intro v hv
      obtain ⟨d, _, rfl⟩ := List.mem_map.mp hv
      trivial
    · intro i hi
      obtain ⟨p, _, rfl⟩ := Option.map_eq_some_iff.mp hi
      cases p <;> trivial
  | unset => exact ⟨rfl, ⟨rfl, fun _ => by simp⟩, rfl, rfl⟩
  | clientStart _ => exact ⟨rfl, ⟨rfl, fun _ => by simp⟩, rfl, rfl⟩
  | serverStart _ => exact ⟨rfl, ⟨rfl, fun _ => by simp⟩, rfl, rfl⟩
  | next _ => exact ⟨rfl, ⟨rfl, fun _ => by simp⟩, rfl, rfl⟩

theorem Rel.read {m : Mem} {h : Held} {r : ReqV} {q : SessionReq} (hr : Rel m h r q) :
    r.read m = .ok q := by
  obtain ⟨ha, hk⟩ := hr
  unfold ReqV.read
  cases hrk : r.kind with
  | other k =>
    rw [hrk] at hk
    obtain ⟨⟨rfl, _⟩, _⟩ := hk
    rw [ha]
  | ticket tv =>
    rw [hrk] at hk
    obtain ⟨t, hq, h1, h2, h3, _⟩ := hk
    simp only [h1, h3, h2, ha]
    show Except.ok _ = _
    rw [← hq]

theorem Rel.touch {m : Mem} {h : Held} {r : ReqV} {q : SessionReq} (hr : Rel m h r q)
    {b : Block} (o : Option Bytes) (h1 : h.identity ≠ some b) (h2 : b ∉ h.tickets) :
    Rel (m.set b o) h r q := by
  obtain ⟨ha, hk⟩ := hr
  refine ⟨ha, ?_⟩
  cases hrk : r.kind with
  | other k => rw [hrk] at hk; exact hk
  | ticket tv =>
    rw [hrk] at hk
    obtain ⟨t, hq, e1, e2, e3, e4, e5, e6, e7⟩ := hk
    have hs : ∀ c, c ≠ b → str (m.set b o) c = str m c := fun c hc => by simp [str, Mem.set, hc]
    refine ⟨t, hq, ?_, e2, ?_, e4, e5, fun c hc => ?_, fun c hc => ?_⟩
    · rw [← e1]
      refine mapM_read_congr fun v hv => View.read_set ?_
      have := e4 v hv
      cases v with
      | own _ => trivial
      | of c n => exact fun hcb => h2 (hcb ▸ this)
    · rw [← e3]
      cases hl : tv.localIdentity with
      | none => rfl
      | some i =>
        have hi := e5 i (by rw [hl]; rfl)
        have key : i.In (· ≠ b) := by
          have aux : ∀ v : View, v.In (fun c => h.identity = some c) → v.In (· ≠ b) := by
            intro v hv
            cases v with
            | own _ => trivial
            | of c n => exact fun hcb => h1 (hcb ▸ hv)
          cases i with
          | unset => trivial
          | spiffeId v => exact aux v hi
          | hostname v => exact aux v hi
          | uid v => exact aux v hi
        simp only [readId, IdV.read_set key]
    · rw [hs c fun hcb => h2 (hcb ▸ hc)]; exact e6 c hc
    · rw [hs c fun hcb => h1 (hcb ▸ hc)]; exact e7 c hc

theorem idView_alive {m : Mem} {i : IdObj} (ht : i.type ≠ .none) (h : Alive m i.block) :
    ∃ iv p, idView m i = .ok (some iv) ∧ identityToProto ⟨i.type, str m i.block⟩ = some p ∧
      iv.read m = .ok p ∧ iv.In (i.block = ·) ∧
      iv.Has (.of i.block (cstr (str m i.block)).length) := by
  cases hty : i.type with
  | none => exact absurd hty ht
  | spiffeId =>
    refine ⟨.spiffeId (.of i.block (cstr (str m i.block)).length), _, ?_, rfl, ?_, rfl, rfl⟩
    · unfold idView; rw [hty]; simp only [makez_alive h]; rfl
    · simp only [IdV.read, read_cstr h]; rfl
  | hostname =>
    refine ⟨.hostname (.of i.block (cstr (str m i.block)).length), _, ?_, rfl, ?_, rfl, rfl⟩
    · unfold idView; rw [hty]; simp only [makez_alive h]; rfl
    · simp only [IdV.read, read_cstr h]; rfl
  | uid =>
    refine ⟨.uid (.of i.block (cstr (str m i.block)).length), _, ?_, rfl, ?_, rfl, rfl⟩
    · unfold idView; rw [hty]; simp only [makez_alive h]; rfl
    · simp only [IdV.read, read_cstr h]; rfl

/-- The ticket request a call starts from. -/
def startV (r : ReqV) : TicketV := match r.kind with
  | .ticket t => t
  | .other _ => ⟨[], 0, none⟩

def start (q : SessionReq) : TicketReq := match q.kind with
  | .resumptionTicket t => t
  | _ => ⟨[], 0, none⟩

theorem Rel.start {m : Mem} {h : Held} {r : ReqV} {q : SessionReq} (hr : Rel m h r q) :
    (startV r).inBytes.mapM (View.read m) = .ok (start q).inBytes ∧
    readId m (some ((startV r).localIdentity.getD .unset)) =
      .ok (some ((Views.start q).localIdentity.getD .unset)) ∧
    (∀ v ∈ (startV r).inBytes, v.In (· ∈ h.tickets)) ∧
    (((startV r).localIdentity.getD .unset).In fun b => h.identity = some b) ∧
    (∀ b ∈ h.tickets, .of b (str m b).length ∈ (startV r).inBytes) ∧
    (∀ b, h.identity = some b →
      ((startV r).localIdentity.getD .unset).Has (.of b (cstr (str m b)).length)) := by
  obtain ⟨ha, hk⟩ := hr
  unfold startV
  cases hrk : r.kind with
  | other k =>
    rw [hrk] at hk
    obtain ⟨⟨hq, hne⟩, hh1, hh2⟩ := hk
    have : Views.start q = ⟨[], 0, none⟩ := by
      unfold Views.start
      rw [hq]
      cases k with
      | resumptionTicket t => exact absurd rfl (hne t)
      | _ => rfl
    rw [this]
    exact ⟨rfl, rfl, fun v hv => absurd hv (by simp), trivial,
      fun b hb => absurd hb (by simp [hh1]), fun b hb => absurd hb (by simp [hh2])⟩
  | ticket tv =>
    rw [hrk] at hk
    obtain ⟨t, hq, e1, e2, e3, e4, e5, e6, e7⟩ := hk
    have : Views.start q = t := by unfold Views.start; rw [hq]
    rw [this]
    refine ⟨e1, ?_, e4, ?_, e6, ?_⟩
    · cases hl : tv.localIdentity with
      | none =>
        rw [hl] at e3
        have : none = t.localIdentity := by
          have : (Except.ok none : Exec (Option PIdentity)) = .ok t.localIdentity := e3
          injection this
        rw [← this]; rfl
      | some i =>
        rw [hl] at e3
        simp only [readId] at e3
        cases hi : i.read m with
        | error u => simp only [hi] at e3; cases e3
        | ok p =>
          simp only [hi] at e3
          have : some p = t.localIdentity := by
            have : (Except.ok (some p) : Exec (Option PIdentity)) = .ok t.localIdentity := e3
            injection this
          rw [← this]
          simp only [Option.getD_some, readId, hi]; rfl
    · cases hl : tv.localIdentity with
      | none => trivial
      | some i => exact e5 i (by rw [hl]; rfl)
    · intro b hb
      obtain ⟨i, hi, hv⟩ := e7 b hb
      have : tv.localIdentity = some i := hi
      rw [this]; exact hv

theorem View.In.mono {P Q : Block → Prop} (hPQ : ∀ b, P b → Q b) {v : View} (h : v.In P) :
    v.In Q := by
  cases v with
  | own _ => trivial
  | of b n => exact hPQ b h

theorem IdV.In.mono {P Q : Block → Prop} (hPQ : ∀ b, P b → Q b) {v : IdV} (h : v.In P) :
    v.In Q := by
  cases v with
  | unset => trivial
  | spiffeId v => exact View.In.mono hPQ h
  | hostname v => exact View.In.mono hPQ h
  | uid v => exact View.In.mono hPQ h

theorem prepare_rel {m : Mem} {h : Held} {r : ReqV} {q : SessionReq} (hr : Rel m h r q)
    (c : UInt64) (i : IdObj) (ts : Option (List (Option Block)))
    (hl : Looks i ts → Alive m i.block ∧ ∀ t ∈ ts.getD [], ∃ b, t = some b ∧ Alive m b) :
    ∃ r', prepare m c i ts r = .ok ((TicketSender.prepare c ⟨i.type, str m i.block⟩
        (ts.map (List.map fun t => str m (t.getD 0))) q).1, r') ∧
      Rel m (h.next (.prepare c i ts)) r' (TicketSender.prepare c ⟨i.type, str m i.block⟩
        (ts.map (List.map fun t => str m (t.getD 0))) q).2 := by
  cases ts with
  | none =>
    have hn : h.next (.prepare c i none) = h := by
      simp only [Held.next]; rw [if_neg (by simp [Looks])]
    rw [hn]
    exact ⟨r, rfl, hr⟩
  | some ts =>
    obtain ⟨s1, s2, s3, s4, s5, s6⟩ := hr.start
    by_cases hty : i.type = .none
    · have hn : h.next (.prepare c i (some ts)) = h := by
        simp only [Held.next]; rw [if_neg (by simp [Looks, hty])]
      rw [hn]
      have hp : TicketSender.prepare c ⟨i.type, str m i.block⟩
          ((some ts).map (List.map fun t => str m (t.getD 0))) q =
          (false, SessionReq.mk (.resumptionTicket
            ⟨(start q).inBytes, c.toNat, some ((start q).localIdentity.getD .unset)⟩)
            q.authMechanisms) := by
        rw [hty]; rfl
      rw [hp]
      refine ⟨ReqV.mk (.ticket ⟨(startV r).inBytes, c.toNat,
        some ((startV r).localIdentity.getD .unset)⟩) r.authMechanisms, ?_, ?_⟩
      · unfold prepare idView; rw [hty]; rfl
      · refine ⟨hr.auth, _, rfl, s1, rfl, s2, s3, ?_, s5, fun b hb => ⟨_, rfl, s6 b hb⟩⟩
        intro j hj
        have : some ((startV r).localIdentity.getD .unset) = some j := hj
        injection this with this
        rw [← this]; exact s4
    · have hlk : Looks i (some ts) := ⟨hty, by simp⟩
      obtain ⟨ai, at'⟩ := hl hlk
      obtain ⟨iv, p, hv, hp, hread, hin, hhas⟩ := idView_alive hty ai
      have hn : h.next (.prepare c i (some ts)) =
          ⟨some i.block, h.tickets ++ ts.filterMap id⟩ := by
        simp only [Held.next]; rw [if_pos hlk]; rfl
      rw [hn]
      have hq : TicketSender.prepare c ⟨i.type, str m i.block⟩
          ((some ts).map (List.map fun t => str m (t.getD 0))) q =
          (true, SessionReq.mk (.resumptionTicket
            ⟨(start q).inBytes ++ ts.map (fun t => str m (t.getD 0)), c.toNat, some p⟩)
            q.authMechanisms) := by
        unfold TicketSender.prepare
        simp only [Option.map_some, hp]
        rfl
      rw [hq]
      refine ⟨ReqV.mk (.ticket ⟨(startV r).inBytes ++ ticketViews m ts, c.toNat,
        some iv⟩) r.authMechanisms, ?_, ?_⟩
      · unfold prepare
        have hm : ts.mapM (makeTicket m) = .ok (ticketViews m ts) := mapM_makeTicket at'
        simp only [hv, hm]
        rfl
      · refine ⟨hr.auth, _, rfl, mapM_ok_append s1 (mapM_readTicket at'), rfl, ?_, ?_, ?_,
          fun b hb => ?_, fun b hb => ⟨_, rfl, ?_⟩⟩
        · simp only [readId, hread]; rfl
        · intro v hv'
          rcases List.mem_append.mp hv' with hv' | hv'
          · exact View.In.mono (fun b hb => List.mem_append.mpr (.inl hb)) (s3 v hv')
          · obtain ⟨t, ht, rfl⟩ := List.mem_map.mp hv'
            obtain ⟨b, rfl, _⟩ := at' t ht
            exact List.mem_append.mpr (.inr (List.mem_filterMap.mpr ⟨some b, ht, rfl⟩))
        · intro j hj
          have : some iv = some j := hj
          injection this with this
          rw [← this]
          exact IdV.In.mono (fun b hb => by rw [← hb]) hin
        · rcases List.mem_append.mp hb with hb | hb
          · exact List.mem_append.mpr (.inl (s5 b hb))
          · obtain ⟨t, ht, htb⟩ := List.mem_filterMap.mp hb
            have htb : t = some b := htb
            subst htb
            exact List.mem_append.mpr (.inr (List.mem_map.mpr ⟨some b, ht, rfl⟩))
        · injection hb with hb
          rw [← hb]; exact hhas

/-- The request, by value, after a history. -/
def reqAfter (m : Mem) (q : SessionReq) : List Ev → SessionReq
  | [] => q
  | .prepare c i ts :: es => reqAfter m (TicketSender.prepare c ⟨i.type, str m i.block⟩
      (ts.map (List.map fun t => str m (t.getD 0))) q).2 es
  | .touch b o :: es => reqAfter (m.set b o) q es
  | .serialize :: es => reqAfter m q es

theorem run_careful : ∀ (es tail : List Ev) {m : Mem} {h : Held} {r : ReqV} {q : SessionReq},
    Rel m h r q → Careful m h es →
    ∃ r', Rel (memAfter m es) (h.after es) r' (reqAfter m q es) ∧
      run m r (es ++ tail) = (do
        let os ← run (memAfter m es) r' tail
        .ok (copied m q es ++ os))
  | [], tail, m, h, r, q, hr, _ => by
    refine ⟨r, hr, ?_⟩
    show run m r tail = _
    cases hrun : run m r tail with
    | error u => simp only [memAfter, List.foldl_nil, hrun]; rfl
    | ok os => simp only [memAfter, List.foldl_nil, hrun]; rfl
  | .prepare c i ts :: es, tail, m, h, r, q, hr, hc => by
    obtain ⟨r1, hp, hr1⟩ := prepare_rel hr c i ts hc.1
    obtain ⟨r', hr', hrun⟩ := run_careful es tail hr1 hc.2
    refine ⟨r', hr', ?_⟩
    simp only [List.cons_append, run, step, hp, copied]
    show (run m r1 (es ++ tail) >>= _) = _
    rw [hrun]
    show _ = (run (memAfter m es) r' tail >>= _)
    cases run (memAfter m es) r' tail <;> rfl
  | .touch b o :: es, tail, m, h, r, q, hr, hc => by
    have hr1 := hr.touch o hc.1.1 hc.1.2
    obtain ⟨r', hr', hrun⟩ := run_careful es tail hr1 hc.2
    refine ⟨r', hr', ?_⟩
    simp only [List.cons_append, run, step, copied]
    show (run (m.set b o) r (es ++ tail) >>= _) = _
    rw [hrun]
    show _ = (run (memAfter (m.set b o) es) r' tail >>= _)
    cases run (memAfter (m.set b o) es) r' tail <;> rfl
  | .serialize :: es, tail, m, h, r, q, hr, hc => by
    obtain ⟨r', hr', hrun⟩ := run_careful es tail hr hc.2
    refine ⟨r', hr', ?_⟩
    simp only [List.cons_append, run, step, hr.read, copied]
    show (run m r (es ++ tail) >>= _) = _
    rw [hrun]
    show _ = (run (memAfter m es) r' tail >>= _)
    cases run (memAfter m es) r' tail <;> rfl

theorem read_freed {m : Mem} {b : Block} {v : View} {d : Bytes} (h : v.read m = .ok d) :
    v.read (m.set b none) = .ok d ∨ v.read (m.set b none) = .error .useAfterFree := by
  cases v with
  | own e => exact .inl h
  | of c n =>
    by_cases hc : c = b
    · subst hc
      by_cases hn : n = 0
      · left
        simp only [View.read, if_pos hn] at h ⊢
        exact h
      · right
        simp only [View.read, if_neg hn, Mem.set, if_pos]
    · left; rw [View.read_set (show (View.of c n).In (· ≠ b) from hc)]; exact h

theorem read_freed_self {m : Mem} {b : Block} {n : Nat} (hn : n ≠ 0) :
    View.read (m.set b none) (.of b n) = .error .useAfterFree := by
  simp only [View.read, if_neg hn, Mem.set, if_pos]

theorem mapM_cons_eq {f : View → Exec Bytes} {v : View} {vs : List View} {a : Bytes}
    (h : f v = .ok a) : (v :: vs).mapM f = (do let as ← vs.mapM f; .ok (a :: as)) := by
  rw [List.mapM_cons, h]; rfl

theorem mapM_cons_error {f : View → Exec Bytes} {v : View} {vs : List View} {u : UB}
    (h : f v = .error u) : (v :: vs).mapM f = .error u := by
  rw [List.mapM_cons, h]; rfl

theorem mapM_ok_cons {f : View → Exec Bytes} {v : View} {vs : List View} {as : List Bytes}
    (h : (v :: vs).mapM f = .ok as) : ∃ a as', f v = .ok a ∧ vs.mapM f = .ok as' := by
  cases hf : f v with
  | error u => rw [mapM_cons_error hf] at h; cases h
  | ok a =>
    rw [mapM_cons_eq hf] at h
    cases hv : vs.mapM f with
    | error u => simp only [hv] at h; cases h
    | ok as' => exact ⟨a, as', rfl, rfl⟩

theorem mapM_freed {m : Mem} {b : Block} : ∀ {vs : List View} {as : List Bytes},
    vs.mapM (View.read m) = .ok as →
    (∃ bs, vs.mapM (View.read (m.set b none)) = .ok bs) ∨
      vs.mapM (View.read (m.set b none)) = .error .useAfterFree
  | [], _, _ => .inl ⟨[], rfl⟩
  | v :: vs, as, h => by
    obtain ⟨a, as', hv, hvs⟩ := mapM_ok_cons h
    rcases read_freed (b := b) hv with h1 | h1
    · rw [mapM_cons_eq h1]
      rcases mapM_freed (b := b) hvs with ⟨bs, h2⟩ | h2
      · rw [h2]; exact .inl ⟨_, rfl⟩
      · rw [h2]; exact .inr rfl
    · exact .inr (mapM_cons_error h1)

theorem mapM_freed_mem {m : Mem} {b : Block} {n : Nat} (hn : n ≠ 0) :
    ∀ {vs : List View} {as : List Bytes}, vs.mapM (View.read m) = .ok as → .of b n ∈ vs →
    vs.mapM (View.read (m.set b none)) = .error .useAfterFree
  | v :: vs, as, h, hmem => by
    obtain ⟨a, as', hv, hvs⟩ := mapM_ok_cons h
    rcases read_freed (b := b) hv with h1 | h1
    · have hne : View.of b n ≠ v := by
        intro he; rw [← he, read_freed_self hn] at h1; cases h1
      rw [mapM_cons_eq h1, mapM_freed_mem hn hvs ((List.mem_cons.mp hmem).resolve_left hne)]
      rfl
    · exact mapM_cons_error h1

theorem Rel.freed {m : Mem} {h : Held} {r : ReqV} {q : SessionReq} (hr : Rel m h r q) {b : Block}
    (hb : b ∈ h.tickets ∧ str m b ≠ [] ∨ h.identity = some b ∧ cstr (str m b) ≠ []) :
    r.read (m.set b none) = .error .useAfterFree := by
  obtain ⟨ha, hk⟩ := hr
  unfold ReqV.read
  cases hrk : r.kind with
  | other k =>
    rw [hrk] at hk
    obtain ⟨_, h1, h2⟩ := hk
    rcases hb with ⟨hb, _⟩ | ⟨hb, _⟩
    · rw [h1] at hb; cases hb
    · rw [h2] at hb; cases hb
  | ticket tv =>
    rw [hrk] at hk
    obtain ⟨t, hq, e1, e2, e3, e4, e5, e6, e7⟩ := hk
    rcases hb with ⟨hb, hne⟩ | ⟨hb, hne⟩
    · have := mapM_freed_mem (b := b) (by simpa using hne) e1 (e6 b hb)
      simp only [this]; rfl
    · obtain ⟨i, hi, hv⟩ := e7 b hb
      have hi' : tv.localIdentity = some i := hi
      have hlen : (cstr (str m b)).length ≠ 0 := by simpa using hne
      have hread : readId (m.set b none) tv.localIdentity = .error .useAfterFree := by
        rw [hi']
        cases i with
        | unset => exact absurd hv id
        | spiffeId v =>
          have : v = _ := hv
          subst this
          simp only [readId, IdV.read, read_freed_self hlen]; rfl
        | hostname v =>
          have : v = _ := hv
          subst this
          simp only [readId, IdV.read, read_freed_self hlen]; rfl
        | uid v =>
          have : v = _ := hv
          subst this
          simp only [readId, IdV.read, read_freed_self hlen]; rfl
      rcases mapM_freed (b := b) e1 with ⟨bs, h1⟩ | h1
      · simp only [h1, hread]; rfl
      · simp only [h1]; rfl

theorem run_cons_ok {m m' : Mem} {r r' : ReqV} {e : Ev} {o : Out} (es : List Ev)
    (h : step m r e = .ok (m', r', o)) :
    run m r (e :: es) = (do let os ← run m' r' es; .ok (o :: os)) := by
  simp only [run, h]; rfl

theorem run_cons_error {m : Mem} {r : ReqV} {e : Ev} {u : UB} (es : List Ev)
    (h : step m r e = .error u) : run m r (e :: es) = .error u := by
  simp only [run, h]; rfl

theorem mapM_makeTicket_error {m : Mem} {t : Option Block} {u : UB} (ht : makeTicket m t = .error u)
    (post : List (Option Block)) : ∀ {pre : List (Option Block)},
    (∀ t ∈ pre, ∃ b, t = some b ∧ Alive m b) →
    (pre ++ t :: post).mapM (makeTicket m) = .error u
  | [], _ => by rw [List.nil_append, List.mapM_cons, ht]; rfl
  | a :: pre, h => by
    obtain ⟨b, rfl, hb⟩ := h a (List.mem_cons_self ..)
    rw [List.cons_append, List.mapM_cons, makeTicket_alive hb,
      mapM_makeTicket_error ht post fun x hx => h x (List.mem_cons_of_mem _ hx)]
    rfl

theorem prepare_bad_identity {m : Mem} {i : IdObj} (hi : i.type ≠ .none) (hb : m i.block = none)
    (c : UInt64) (ts : List (Option Block)) (r : ReqV) :
    prepare m c i (some ts) r = .error .useAfterFree := by
  have hz : makez m i.block = .error .useAfterFree := by unfold makez; rw [hb]
  have hv : idView m i = .error .useAfterFree := by
    unfold idView
    cases h : i.type with
    | none => exact absurd h hi
    | spiffeId => simp only [hz]; rfl
    | hostname => simp only [hz]; rfl
    | uid => simp only [hz]; rfl
  unfold prepare
  simp only [hv]; rfl

theorem prepare_bad_ticket {m : Mem} {i : IdObj} (hi : i.type ≠ .none) (hb : Alive m i.block)
    (c : UInt64) {pre : List (Option Block)} (post : List (Option Block)) (r : ReqV)
    (hpre : ∀ t ∈ pre, ∃ b, t = some b ∧ Alive m b) {t : Option Block} {u : UB}
    (ht : makeTicket m t = .error u) :
    prepare m c i (some (pre ++ t :: post)) r = .error u := by
  obtain ⟨iv, p, hv, _⟩ := idView_alive hi hb
  unfold prepare
  simp only [hv, mapM_makeTicket_error ht post hpre]
  rfl

theorem run_last_error {m : Mem} {q : SessionReq} {es : List Ev} (h : Careful m .nothing es)
    {c : UInt64} {i : IdObj} {ts : Option (List (Option Block))} {u : UB}
    (hp : ∀ r, prepare (memAfter m es) c i ts r = .error u) :
    run m (.ofReq q) (es ++ [.prepare c i ts]) = .error u := by
  obtain ⟨r', hr', hrun⟩ := run_careful es [.prepare c i ts] (rel_ofReq m q) h
  rw [hrun, run_cons_error (u := u)]
  · rfl
  · simp only [step, hp r']; rfl

end S2A.Views
