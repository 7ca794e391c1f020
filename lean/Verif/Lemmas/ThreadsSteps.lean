import Verif.Lemmas.ThreadsAlone
/-
The steps of one call, separated from the rest of a concurrent execution.  A call uses one
direction of the connection.
-/
namespace S2A.Frame
open Record (emap)
open HalfConn (exec_bind_eq_ok)

/-- The mutex of the frame protector for a direction. -/
def Half.mu : Half → Mu
  | .inbound => .unprotectMu
  | .outbound => .protectMu

theorem Half.mu_inj {d e : Half} (h : d.mu = e.mu) : d = e := by
  cases d <;> cases e <;> first | rfl | cases h

theorem Half.mu_ne_half (d e : Half) : d.mu ≠ .half e := by cases d <;> exact fun h => by cases h

/-- One direction of a connection, with the results of the crypter calls on it. -/
structure Side where
  conn : Record.Conn
  evs : List Record.Event

/-- What a direction sees of the shared state.  The other direction is as in `c0`. -/
def Shared.view (c0 : Record.Conn) (s : Shared) : Half → Side
  | .outbound => ⟨c0.withOut s.conn.outC, s.evs.filter (·.isOut)⟩
  | .inbound => ⟨s.conn.withOut c0.outC, s.evs.filter (!·.isOut)⟩

theorem view_inj {c0 : Record.Conn} {s s' : Shared} (h : ∀ d, s.view c0 d = s'.view c0 d) :
    s.conn = s'.conn ∧ s.evs.filter (·.isOut) = s'.evs.filter (·.isOut) ∧
      s.evs.filter (!·.isOut) = s'.evs.filter (!·.isOut) := by
  have h1 := h .outbound
  have h2 := h .inbound
  simp only [Shared.view, Side.mk.injEq] at h1 h2
  refine ⟨?_, h1.2, h2.2⟩
  have e1 : s.conn.outC = s'.conn.outC := congrArg (·.outC) h1.1
  have e2 := congrArg (fun c => c.withOut s.conn.outC) h2.1
  have e3 : s'.conn.withOut s.conn.outC = s'.conn := by rw [e1]; rfl
  exact e2.trans e3

/-- The direction a step concerns. -/
def Act.dir : Act → Half
  | .readHalf h => h
  | .writeHalf h _ => h
  | .readOwn => .inbound
  | .writeOwn _ => .inbound
  | .emit ev => if ev.isOut then .outbound else .inbound

/-- Is the step allowed only under the mutex of the half connection? -/
def Act.guarded : Act → Bool
  | .readHalf _ => true
  | .writeHalf .. => true
  | _ => false

/-- A step on the shared state. -/
def Shared.act (s : Shared) (a : Act) : Shared :=
  { s with conn := a.conn s.conn, evs := s.evs ++ a.evs }

/-- A step on one direction. -/
def Side.act (x : Side) (a : Act) : Side := ⟨a.conn x.conn, x.evs ++ a.evs⟩

theorem view_reply (c0 : Record.Conn) (s : Shared) (a : Act) :
    a.reply (s.view c0 a.dir).conn = a.reply s.conn := by
  cases a with
  | readHalf h => cases h <;> rfl
  | emit ev => rfl
  | _ => rfl

theorem view_act (c0 : Record.Conn) (s : Shared) (a : Act) :
    (s.act a).view c0 a.dir = (s.view c0 a.dir).act a := by
  cases a with
  | readHalf h => cases h <;> simp [Shared.act, Side.act, Shared.view, Act.dir, Act.conn, Act.evs]
  | writeHalf h hc =>
    cases h <;>
      simp [Shared.act, Side.act, Shared.view, Act.dir, Act.conn, Act.evs, setHalf,
        Record.Conn.withOut]
  | readOwn => simp [Shared.act, Side.act, Shared.view, Act.dir, Act.conn, Act.evs]
  | writeOwn c =>
    simp [Shared.act, Side.act, Shared.view, Act.dir, Act.conn, Act.evs, Record.Conn.withOut]
  | emit ev =>
    simp only [Act.dir]
    by_cases h : ev.isOut
    · simp [Shared.act, Side.act, Shared.view, Act.conn, Act.evs, h]
    · simp [Shared.act, Side.act, Shared.view, Act.conn, Act.evs, h]

theorem view_act_other (c0 : Record.Conn) (s : Shared) (a : Act) {d : Half} (h : d ≠ a.dir) :
    (s.act a).view c0 d = s.view c0 d := by
  cases a with
  | readHalf h' => cases d <;> simp [Shared.act, Shared.view, Act.conn, Act.evs]
  | writeHalf h' hc =>
    cases d <;> cases h' <;>
      first
        | exact absurd rfl h
        | simp [Shared.act, Shared.view, Act.conn, Act.evs, setHalf, Record.Conn.withOut]
  | readOwn => cases d <;> simp [Shared.act, Shared.view, Act.conn, Act.evs]
  | writeOwn c =>
    cases d with
    | inbound => exact absurd rfl h
    | outbound => simp [Shared.act, Shared.view, Act.conn, Act.evs]
  | emit ev =>
    simp only [Act.dir] at h
    cases he : ev.isOut <;> cases d <;> simp [he] at h <;>
      simp [Shared.act, Shared.view, Act.conn, Act.evs, he]

theorem view_next (c0 : Record.Conn) (s : Shared) (n : Nat) (d : Half) :
    ({ s with next := n } : Shared).view c0 d = s.view c0 d := by cases d <;> rfl

/-- `p` uses the direction `d` in the state `x` and the buffers number `as`, and comes to `q` and
`y`. -/
inductive CallSteps {α : Type} (A : Allocator) (d : Half) :
    Prog α → Side → List Nat → Prog α → Side → Prop
  | refl (p : Prog α) (x : Side) : CallSteps A d p x [] p x
  | acquire {m k x as q y} : CallSteps A d k x as q y → CallSteps A d (.acquire m k) x as q y
  | release {m k x as q y} : CallSteps A d k x as q y → CallSteps A d (.release m k) x as q y
  | tag {h k x as q y} : CallSteps A d (k 16) x as q y → CallSteps A d (.tag h k) x as q y
  | alloc {n k x as q y} (i : Nat) : CallSteps A d (k (A i n)) x as q y →
      CallSteps A d (.alloc n k) x (i :: as) q y
  | act {a k x as q y} : a.dir = d → CallSteps A d (k (a.reply x.conn)) (x.act a) as q y →
      CallSteps A d (.act a k) x as q y
  | use {h u k x as q y} : CallSteps A d k x as q y → CallSteps A d (.use h u k) x as q y

theorem CallSteps.trans {α : Type} {A : Allocator} {d : Half} {p q r : Prog α} {x y z as bs}
    (h : CallSteps A d p x as q y) (h' : CallSteps A d q y bs r z) :
    CallSteps A d p x (as ++ bs) r z := by
  induction h with
  | refl => exact h'
  | acquire _ ih => exact .acquire (ih h')
  | release _ ih => exact .release (ih h')
  | tag _ ih => exact .tag (ih h')
  | alloc i _ ih => exact .alloc i (ih h')
  | act hd _ ih => exact .act hd (ih h')
  | use _ ih => exact .use (ih h')

/-- The buffers of `A'`, from number `base`, are those of `A` with the numbers in `idx`. -/
def Agree (A A' : Allocator) (base : Nat) (idx : List Nat) : Prop :=
  ∀ (j i : Nat), idx[j]? = some i → A' (base + j) = A i

theorem Agree.append_left {A A' : Allocator} {base : Nat} {as bs : List Nat}
    (h : Agree A A' base (as ++ bs)) : Agree A A' base as := by
  intro j i hj
  refine h j i ?_
  obtain ⟨hlt, _⟩ := List.getElem?_eq_some_iff.mp hj
  rw [List.getElem?_append_left hlt, hj]

theorem Agree.append_right {A A' : Allocator} {base : Nat} {as bs : List Nat}
    (h : Agree A A' base (as ++ bs)) : Agree A A' (base + as.length) bs := by
  intro j i hj
  have := h (as.length + j) i (by rw [List.getElem?_append_right (by omega)]; simpa using hj)
  rw [← this, Nat.add_assoc]

/-- The steps of a call can be made in a state that looks the same to its direction. -/
theorem CallSteps.alone {α : Type} {A : Allocator} {d : Half} {p q : Prog α} {x y as}
    (h : CallSteps A d p x as q y) {c0 : Record.Conn} {s : Shared} (hx : x = s.view c0 d) :
    ∃ s' : Shared, s'.view c0 d = y ∧ (∀ e, e ≠ d → s'.view c0 e = s.view c0 e) ∧
      s'.next = s.next + as.length ∧
      ∀ A', Agree A A' s.next as → p.alone A' s = q.alone A' s' := by
  induction h generalizing s with
  | refl => exact ⟨s, hx.symm, fun _ _ => rfl, by simp, fun _ _ => rfl⟩
  | acquire _ ih => exact ih hx
  | release _ ih => exact ih hx
  | tag _ ih => exact ih hx
  | use _ ih => exact ih hx
  | @alloc n k x as q y i h ih =>
    obtain ⟨s', h1, h2, h3, h4⟩ := ih (s := { s with next := s.next + 1 })
      (hx.trans (view_next _ _ _ _).symm)
    refine ⟨s', h1, fun e he => (h2 e he).trans (view_next ..), by
      simp only [h3, List.length_cons]; omega, fun A' hA => ?_⟩
    have e0 : A' s.next = A i := hA 0 i rfl
    have hA' : Agree A A' (s.next + 1) as := Agree.append_right (as := [i]) hA
    simp only [Prog.alone, e0]
    exact h4 A' hA'
  | @act a k x as q y hd h ih =>
    subst hd; subst hx
    rw [view_reply] at ih
    obtain ⟨s', h1, h2, h3, h4⟩ := ih (s := s.act a) (view_act c0 s a).symm
    exact ⟨s', h1, fun e he => (h2 e he).trans (view_act_other c0 s a he), h3, h4⟩

/-! ### The shape of the programs -/

/-- Between taking the mutex of the half connection `d` and releasing it, in a state with these
members and uses of keys so far, to which nobody else has access: at the end `J` holds, and at
every use of a key it can be reached. -/
def Prog.Keeps {α : Type} (J : HalfConn → List Spec.KeyUse → Prop) (d : Half) :
    HalfConn → List Spec.KeyUse → Prog α → Prop
  | _, _, .done _ => False
  | _, _, .ub _ => True
  | _, _, .acquire .. => False
  | hc, us, .release m _ => m = .half d ∧ J hc us
  | hc, us, .tag _ k => ∀ n, (k n).Keeps J d hc us
  | hc, us, .alloc _ k => ∀ v, (k v).Keeps J d hc us
  | hc, us, .act (.readHalf h) k => h = d ∧ (k hc).Keeps J d hc us
  | _, us, .act (.writeHalf h hc') k => h = d ∧ (k ()).Keeps J d hc' us
  | _, _, .act .. => False
  | hc, us, .use h u k =>
    h = d ∧ (∃ hc', J hc' (us ++ [u])) ∧ k.Keeps J d hc (us ++ [u])

/-- A program that uses only the direction `d` and takes no mutex but that of the half connection
`d`.  `hl`: it holds this mutex now; `fin`: at the end. -/
def Prog.Body {α : Type} (J : HalfConn → List Spec.KeyUse → Prop) (d : Half) (fin : Bool) :
    Bool → Prog α → Prop
  | hl, .done _ => hl = fin
  | _, .ub _ => True
  | hl, .acquire m k => m = .half d ∧ hl = false ∧ k.Body J d fin true ∧
      ∀ hc us, J hc us → k.Keeps J d hc us
  | hl, .release m k => m = .half d ∧ hl = true ∧ k.Body J d fin false
  | hl, .tag _ k => ∀ n, (k n).Body J d fin hl
  | hl, .alloc _ k => ∀ v, (k v).Body J d fin hl
  | hl, .act a k => a.dir = d ∧ (a.guarded = true → hl = true) ∧ ∀ r, (k r).Body J d fin hl
  | hl, .use h _ k => h = d ∧ hl = true ∧ k.Body J d fin hl

/-- A call in progress, in the direction `d`.  `into`: it takes no mutex of the frame protector;
`taken`: it holds one; `hl`: it holds that of the half connection. -/
def Prog.Stage {α : Type} (J : HalfConn → List Spec.KeyUse → Prop) (d : Half) (into : Bool) :
    Bool → Bool → Prog α → Prop
  | taken, hl, .done _ => taken = false ∧ hl = false
  | _, _, .ub _ => True
  | taken, hl, .acquire m k =>
      (m = d.mu ∧ into = false ∧ taken = false ∧ hl = false ∧ k.Stage J d into true false) ∨
      (m = .half d ∧ (taken = true ∨ into = true) ∧ hl = false ∧ k.Stage J d into taken true ∧
        ∀ hc us, J hc us → k.Keeps J d hc us)
  | taken, hl, .release m k =>
      (m = d.mu ∧ taken = true ∧ hl = false ∧ ∃ a, k = .done a) ∨
      (m = .half d ∧ (taken = true ∨ into = true) ∧ hl = true ∧ k.Stage J d into taken false)
  | taken, hl, .tag _ k => ∀ n, (k n).Stage J d into taken hl
  | taken, hl, .alloc _ k => ∀ v, (k v).Stage J d into taken hl
  | taken, hl, .act a k => a.dir = d ∧ (taken = true ∨ into = true) ∧
      (a.guarded = true → hl = true) ∧ ∀ r, (k r).Stage J d into taken hl
  | taken, hl, .use h _ k => h = d ∧ (taken = true ∨ into = true) ∧ hl = true ∧
      k.Stage J d into taken hl

variable {J : HalfConn → List Spec.KeyUse → Prop}

theorem Prog.Keeps.bind {α β : Type} {d : Half} {p : Prog α} {k : α → Prog β}
    {hc : HalfConn} {us : List Spec.KeyUse} (h : p.Keeps J d hc us) :
    (p.bind k).Keeps J d hc us := by
  induction p generalizing hc us with
  | done a => exact h.elim
  | ub e => trivial
  | acquire => exact h.elim
  | release m p ih => exact h
  | tag h' p ih => exact fun n => ih n (h n)
  | alloc n p ih => exact fun v => ih v (h v)
  | act a p ih =>
    cases a with
    | readHalf h' => exact ⟨h.1, ih _ h.2⟩
    | writeHalf h' hc' => exact ⟨h.1, ih _ h.2⟩
    | readOwn => exact h.elim
    | writeOwn c => exact h.elim
    | emit ev => exact h.elim
  | use h' u p ih => exact ⟨h.1, h.2.1, ih h.2.2⟩

theorem Prog.bind_bind {α β γ : Type} (p : Prog α) (k : α → Prog β) (g : β → Prog γ) :
    (p.bind k).bind g = p.bind fun a => (k a).bind g := by
  induction p with
  | done a => rfl
  | ub e => rfl
  | acquire m p ih => simp only [Prog.bind, ih]
  | release m p ih => simp only [Prog.bind, ih]
  | tag h p ih => simp only [Prog.bind, ih]
  | alloc n p ih => simp only [Prog.bind, ih]
  | act a p ih => simp only [Prog.bind, ih]
  | use h u p ih => simp only [Prog.bind, ih]

theorem Prog.Body.bind {α β : Type} {d : Half} {mid fin hl : Bool} {p : Prog α} {k : α → Prog β}
    (h : p.Body J d mid hl) (hk : ∀ a, (k a).Body J d fin mid) : (p.bind k).Body J d fin hl := by
  induction p generalizing hl with
  | done a => have e : hl = mid := h; subst e; exact hk a
  | ub e => trivial
  | acquire m p ih => exact ⟨h.1, h.2.1, ih h.2.2.1, fun hc us hj => (h.2.2.2 hc us hj).bind⟩
  | release m p ih => exact ⟨h.1, h.2.1, ih h.2.2⟩
  | tag h' p ih => exact fun n => ih n (h n)
  | alloc n p ih => exact fun v => ih v (h v)
  | act a p ih => exact ⟨h.1, h.2.1, fun r => ih r (h.2.2 r)⟩
  | use h' u p ih => exact ⟨h.1, h.2.1, ih h.2.2⟩

theorem Prog.Body.bind' {α β : Type} {d : Half} {mid fin hl : Bool} {p : Prog α} {k : α → Prog β}
    (h : p.Body J d mid hl) (hk : ∀ a, (k a).Body J d fin mid) : (p >>= k).Body J d fin hl :=
  h.bind hk

theorem Prog.body_lift {α β : Type} {d : Half} {fin hl : Bool} {x : Exec α} {k : α → Prog β}
    (hk : ∀ a, x = .ok a → (k a).Body J d fin hl) : (Prog.lift x >>= k).Body J d fin hl := by
  cases x with
  | ok a => exact hk a rfl
  | error e => trivial

theorem Prog.keeps_lift {α β : Type} {d : Half} {hc us} {x : Exec α} {k : α → Prog β}
    {g : β → Prog β} (hk : ∀ a, x = .ok a → ((k a).bind g).Keeps J d hc us) :
    ((Prog.lift x >>= k).bind g).Keeps J d hc us := by
  cases x with
  | ok a => exact hk a rfl
  | error e => trivial

/-- What is done under the mutex of a half connection. -/
theorem locked_body {α : Type} {d : Half} {p : Prog α} (h : p.Body J d true true)
    (hk : ∀ hc us, J hc us → (p.bind fun a => .release (.half d) (.done a)).Keeps J d hc us) :
    (Prog.locked (.half d) p).Body J d false false :=
  ⟨rfl, rfl, h.bind fun _ => ⟨rfl, rfl, rfl⟩, hk⟩

/-- A program of a call that takes no mutex of the frame protector. -/
theorem Prog.Body.stage_into {α : Type} {d : Half} {hl : Bool} {p : Prog α}
    (h : p.Body J d false hl) : p.Stage J d true false hl := by
  induction p generalizing hl with
  | done a => exact ⟨rfl, h⟩
  | ub e => trivial
  | acquire m p ih => exact .inr ⟨h.1, .inr rfl, h.2.1, ih h.2.2.1, h.2.2.2⟩
  | release m p ih => exact .inr ⟨h.1, .inr rfl, h.2.1, ih h.2.2⟩
  | tag h' p ih => exact fun n => ih n (h n)
  | alloc n p ih => exact fun v => ih v (h v)
  | act a p ih => exact ⟨h.1, .inr rfl, h.2.1, fun r => ih r (h.2.2 r)⟩
  | use h' u p ih => exact ⟨h.1, .inr rfl, h.2.1, ih h.2.2⟩

theorem Prog.Body.stage_held {α β : Type} {d : Half} {hl : Bool} {p : Prog α} {k : α → Prog β}
    (h : p.Body J d false hl) (hk : ∀ a, ∃ b, k a = .done b) :
    ((p.bind fun a => .release d.mu (.done a)).bind k).Stage J d false true hl := by
  induction p generalizing hl with
  | done a => exact .inl ⟨rfl, rfl, h, hk a⟩
  | ub e => trivial
  | acquire m p ih =>
    exact .inr ⟨h.1, .inl rfl, h.2.1, ih h.2.2.1, fun hc us hj => (h.2.2.2 hc us hj).bind.bind⟩
  | release m p ih => exact .inr ⟨h.1, .inl rfl, h.2.1, ih h.2.2⟩
  | tag h' p ih => exact fun n => ih n (h n)
  | alloc n p ih => exact fun v => ih v (h v)
  | act a p ih => exact ⟨h.1, .inl rfl, h.2.1, fun r => ih r (h.2.2 r)⟩
  | use h' u p ih => exact ⟨h.1, .inl rfl, h.2.1, ih h.2.2⟩

theorem locked_stage {α β : Type} {d : Half} {p : Prog α} {k : α → Prog β}
    (h : p.Body J d false false) (hk : ∀ a, ∃ b, k a = .done b) :
    ((Prog.locked d.mu p).bind k).Stage J d false false false :=
  .inl ⟨rfl, rfl, rfl, rfl, h.stage_held hk⟩

/-! ### The programs -/

/-- The calls on a half connection keep `J`. -/
structure Closed (L : Lib) (J : HalfConn → List Spec.KeyUse → Prop) : Prop where
  encrypt : ∀ hc us f aad pt out hc' call r, J hc us →
    hc.encrypt L f aad pt (.buf out) = .ok (hc', some call, r) →
    J hc' (us ++ [.aead call.key call.nonce])
  decrypt : ∀ hc us f aad ct out hc' call r, J hc us →
    hc.decrypt L f aad ct out = .ok (hc', some call, r) →
    J hc' (us ++ [.aead call.key call.nonce])
  updateKey : ∀ hc us f hc' st, J hc us → hc.updateKey L f = .ok (hc', st) →
    J hc' (us ++ if st = .ok then [.rekey] else [])

theorem Closed.trivial (L : Lib) : Closed L fun _ _ => True :=
  ⟨fun _ _ _ _ _ _ _ _ _ _ _ => True.intro, fun _ _ _ _ _ _ _ _ _ _ _ => True.intro,
    fun _ _ _ _ _ _ _ => True.intro⟩

theorem cryptP_body {d : Half} {aead : Aead.Crypter → Bytes → Exec Aead.Result} {aad data : Bytes}
    {out : Iovec}
    (h : ∀ hc us n hc' r, J hc us → ¬ (hc.alwaysFail || hc.overflowed) = true →
      hc.nonceMask = .ok (n, hc') → aead hc.aead n = .ok r →
      J hc' (us ++ [.aead hc.aead.key n])) :
    (cryptP d aead aad data out).Body J d false false := by
  refine locked_body ?_ ?_
  · refine ⟨rfl, fun _ => rfl, fun hc => ?_⟩
    simp only [Prog.bind]
    split
    · rfl
    · refine Prog.body_lift fun x _ => ?_
      refine ⟨rfl, fun _ => rfl, fun _ => ?_⟩
      refine ⟨rfl, fun _ => rfl, fun hc' => ?_⟩
      exact Prog.body_lift fun r _ => ⟨rfl, rfl, rfl⟩
  · intro hc us hj
    refine ⟨rfl, ?_⟩
    simp only [Prog.bind]
    split
    · exact ⟨rfl, hj⟩
    · rename_i hb
      refine Prog.keeps_lift fun x hx => ?_
      obtain ⟨n, hc'⟩ := x
      refine ⟨rfl, rfl, ?_⟩
      refine Prog.keeps_lift fun r hr => ?_
      have ha : hc'.aead = hc.aead := by
        unfold HalfConn.nonceMask at hx
        obtain ⟨b, _, hx⟩ := exec_bind_eq_ok.mp hx
        cases hx; rfl
      rw [ha] at hr
      have := h hc us n hc' r hj hb hx hr
      rw [← ha] at this
      exact ⟨rfl, ⟨_, this⟩, rfl, this⟩

theorem encryptP_body {L : Lib} (hJ : Closed L J) (f : EvpFault) (d : Half) (aad pt : List Iovec)
    (out : Bytes) : (encryptP L f d aad pt (.buf out)).Body J d false false := by
  refine cryptP_body fun hc us n hc' r hj hb hn hr => ?_
  refine hJ.encrypt hc us f aad pt out hc' ⟨hc.aead.key, n, flat aad, flat pt⟩ r hj ?_
  unfold HalfConn.encrypt
  rw [if_neg hb, hn, exec_bind_ok]
  simp only [hr, exec_bind_ok]
  rfl

theorem decryptP_body {L : Lib} (hJ : Closed L J) (f : EvpFault) (d : Half) (aad ct : List Iovec)
    (out : Iovec) : (decryptP L f d aad ct out).Body J d false false := by
  refine cryptP_body fun hc us n hc' r hj hb hn hr => ?_
  refine hJ.decrypt hc us f aad ct out hc' ⟨hc.aead.key, n, flat aad, flat ct⟩ r hj ?_
  unfold HalfConn.decrypt
  rw [if_neg hb, hn, exec_bind_ok]
  simp only [hr, exec_bind_ok]
  rfl

theorem createAead_error {f : Bool} {cs : Ciphersuite} {key : Bytes} {e : StatusCode}
    (h : HalfConn.createAead f cs key = .error e) : e ≠ .ok := by
  rintro rfl
  unfold HalfConn.createAead Aead.createAesGcm Aead.createChachaPoly at h
  repeat' split at h
  all_goals simp at h

theorem updateKeyP_body {L : Lib} (hJ : Closed L J) (f : KeyFault) (d : Half) :
    (updateKeyP L f d).Body J d false false := by
  refine locked_body ?_ ?_
  · refine ⟨rfl, fun _ => rfl, fun hc => ?_⟩
    refine Prog.body_lift fun x _ => ?_
    obtain ⟨st, secret⟩ := x
    refine ⟨rfl, fun _ => rfl, fun _ => ?_⟩
    simp only [Prog.bind]
    split
    · exact ⟨rfl, fun _ => rfl, fun _ => rfl⟩
    · refine Prog.body_lift fun x _ => ?_
      obtain ⟨st, key⟩ := x
      simp only []
      split
      · exact ⟨rfl, fun _ => rfl, fun _ => rfl⟩
      · refine Prog.body_lift fun x _ => ?_
        obtain ⟨st, nonce⟩ := x
        refine ⟨rfl, fun _ => rfl, fun _ => ?_⟩
        simp only [Prog.bind]
        split
        · exact ⟨rfl, fun _ => rfl, fun _ => rfl⟩
        · split
          · exact ⟨rfl, fun _ => rfl, fun _ => rfl⟩
          · exact ⟨rfl, fun _ => rfl, fun _ => ⟨rfl, rfl, rfl, fun _ => rfl, fun _ => rfl⟩⟩
  · intro hc us hj
    have hu := hJ.updateKey hc us f
    unfold HalfConn.updateKey at hu
    refine ⟨rfl, ?_⟩
    refine Prog.keeps_lift fun x hx => ?_
    obtain ⟨st, secret⟩ := x
    rw [hx] at hu
    simp only [exec_bind_ok] at hu
    refine ⟨rfl, ?_⟩
    simp only [Prog.bind]
    by_cases h1 : st ≠ .ok
    · simp only [if_pos h1] at hu ⊢
      have := hu _ _ hj rfl
      rw [if_neg h1, List.append_nil] at this
      exact ⟨rfl, rfl, this⟩
    · simp only [if_neg h1] at hu ⊢
      refine Prog.keeps_lift fun x hx => ?_
      obtain ⟨st, key⟩ := x
      simp only [hx, exec_bind_ok] at hu
      simp only []
      by_cases h2 : st ≠ .ok
      · simp only [if_pos h2] at hu ⊢
        have := hu _ _ hj rfl
        rw [if_neg h2, List.append_nil] at this
        exact ⟨rfl, rfl, this⟩
      · simp only [if_neg h2] at hu ⊢
        refine Prog.keeps_lift fun x hx => ?_
        obtain ⟨st, nonce⟩ := x
        simp only [hx, exec_bind_ok] at hu
        refine ⟨rfl, ?_⟩
        simp only [Prog.bind]
        by_cases h3 : st ≠ .ok
        · simp only [if_pos h3] at hu ⊢
          have := hu _ _ hj rfl
          rw [if_neg h3, List.append_nil] at this
          exact ⟨rfl, rfl, this⟩
        · simp only [if_neg h3] at hu ⊢
          cases hc' : HalfConn.createAead f.create hc.cs key with
          | error e =>
            simp only [hc'] at hu ⊢
            have := hu _ _ hj rfl
            have he : e ≠ .ok := by
              rintro rfl
              exact createAead_error hc' rfl
            rw [if_neg he, List.append_nil] at this
            exact ⟨rfl, rfl, this⟩
          | ok a =>
            simp only [hc'] at hu ⊢
            have := hu _ _ hj rfl
            rw [if_pos rfl] at this
            exact ⟨rfl, rfl, ⟨_, this⟩, rfl, rfl, this⟩

theorem overheadP_body (d : Half) (hl : Bool) : overheadP.Body J d hl hl := fun _ => rfl

theorem sealP_body {L : Lib} (hJ : Closed L J) (f : EvpFault) (rt) (pt : List Iovec)
    (out : Iovec) : (sealP L f rt pt out).Body J .outbound false false := by
  unfold sealP
  simp only []
  split
  · rfl
  · refine (overheadP_body _ _).bind' fun o => ?_
    split
    · rfl
    · intro tag
      simp only [Prog.bind]
      cases out with
      | null n => trivial
      | buf rb =>
        refine Prog.body_lift fun rb' _ => ?_
        cases Record.convertRecordType rt with
        | error e => rfl
        | ok t =>
          refine Prog.body_lift fun rest hrest => ?_
          obtain ⟨b, rfl⟩ : ∃ b, rest = .buf b := by
            simp only [Iovec.slice] at hrest
            split at hrest
            · simp at hrest; exact ⟨_, hrest.symm⟩
            · simp at hrest
          refine (encryptP_body hJ ..).bind' fun x => ?_
          obtain ⟨call, r⟩ := x
          simp only []
          split <;> rfl

theorem handleTicketsP_body {β : Type} (r : Handler.Result) (b : β) :
    (do
      let c ← Prog.readOwn
      let c ← Prog.lift (Record.handleTickets c r)
      Prog.writeOwn c
      return b : Prog β).Body J .inbound false false :=
  ⟨rfl, (fun h => by cases h), fun _ => Prog.body_lift fun _ _ => ⟨rfl, (fun h => by cases h),
    fun _ => rfl⟩⟩

theorem handleResultP_body {L : Lib} (hJ : Closed L J) (f : KeyFault) (r) :
    (handleResultP L f r).Body J .inbound false false := by
  unfold handleResultP
  cases r with
  | error e => rfl
  | ok r =>
    refine ⟨rfl, (fun h => by cases h), fun c => ?_⟩
    refine ⟨rfl, (fun h => by cases h), fun _ => ?_⟩
    simp only [Prog.bind]
    split
    · refine (updateKeyP_body hJ ..).bind' fun st => ?_
      split
      · rfl
      · exact handleTicketsP_body ..
    · exact handleTicketsP_body ..

theorem dispatchP_body {L : Lib} (hJ : Closed L J) (f : KeyFault) (call) (pt : Bytes) (w : Nat) :
    (dispatchP L f call pt w).Body J .inbound false false := by
  unfold dispatchP
  refine Prog.body_lift fun x _ => ?_
  cases x with
  | none => rfl
  | some x =>
    obtain ⟨n, t⟩ := x
    simp only []
    split
    · split
      · rfl
      · cases pt[1]? with
        | none => trivial
        | some l =>
          simp only []
          split
          · exact ⟨rfl, (fun h => by cases h), fun _ => ⟨rfl, (fun h => by cases h), fun _ => rfl⟩⟩
          · rfl
    · split
      · refine ⟨rfl, (fun h => by cases h), fun c => Prog.body_lift fun y _ => ?_⟩
        refine ⟨rfl, (fun h => by cases h), fun _ => ?_⟩
        refine (handleResultP_body hJ ..).bind' fun z => ?_
        obtain ⟨st, rekey⟩ := z
        simp only []
        split <;> rfl
      · split
        · refine ⟨rfl, (fun h => by cases h), fun (c : Record.Conn) => ?_⟩
          simp only [Prog.bind]
          split
          · rfl
          · split
            · exact Prog.body_lift fun c _ => ⟨rfl, (fun h => by cases h), fun _ => rfl⟩
            · rfl
        · rfl

theorem openP_body {L : Lib} (hJ : Closed L J) (f : Record.Fault) (hd : Iovec) (pl : List Iovec)
    (out : Iovec) : (openP L f hd pl out).Body J .inbound false false := by
  unfold openP
  refine ⟨rfl, (fun h => by cases h), fun (c : Record.Conn) => ?_⟩
  simp only [Prog.bind]
  split
  · rfl
  · refine (overheadP_body _ _).bind' fun o => ?_
    split
    · rfl
    · refine (overheadP_body _ _).bind' fun o => ?_
      split
      · rfl
      · split
        · rfl
        · refine (decryptP_body hJ ..).bind' fun x => ?_
          obtain ⟨call, r⟩ := x
          simp only []
          split
          · exact Prog.body_lift fun _ _ => rfl
          · cases r.out with
            | null n => trivial
            | buf pt => exact dispatchP_body hJ ..

theorem crypterProtectP_body {L : Lib} (hJ : Closed L J) (f : EvpFault) (pt : List Iovec)
    (out : Iovec) : (crypterProtectP L f pt out).Body J .outbound false false :=
  (sealP_body hJ ..).bind' fun _ => ⟨rfl, (fun h => by cases h), fun _ => rfl⟩

theorem crypterUnprotectP_body {L : Lib} (hJ : Closed L J) (f : Record.Fault) (hd : Bytes)
    (pl : List Iovec) (out : Iovec) :
    (crypterUnprotectP L f hd pl out).Body J .inbound false false :=
  (openP_body hJ ..).bind' fun _ => ⟨rfl, (fun h => by cases h), fun _ => rfl⟩

theorem protectLoopP_body {L : Lib} (hJ : Closed L J) (f : Nat → EvpFault) (fuel i : Nat)
    (vs : List Iovec) (on : Nat) (first : Bool) (rem idx : Nat) (out : Iovec) :
    (protectLoopP L f fuel i vs on first rem idx out).Body J .outbound false false := by
  induction fuel generalizing i vs on first rem idx out with
  | zero => trivial
  | succ fuel ih =>
    unfold protectLoopP
    split
    · generalize (if rem < kMaxPlaintext then rem else kMaxPlaintext) = m
      refine Prog.body_lift fun x _ => Prog.body_lift fun room _ => Prog.body_lift fun slot _ => ?_
      refine (crypterProtectP_body hJ ..).bind' fun r => ?_
      simp only []
      split
      · rfl
      · refine (overheadP_body _ _).bind' fun o => ?_
        split
        · rfl
        · exact ih _ _ _ _ _ _ _
    · rfl

theorem unprotectLoopP_body {L : Lib} (hJ : Closed L J) (f : Nat → Record.Fault) (fuel i : Nat)
    (vs : List Iovec) (on rem : Nat) (done : List (BufId × Bytes)) :
    (unprotectLoopP L f fuel i vs on rem done).Body J .inbound false false := by
  induction fuel generalizing i vs on rem done with
  | zero => trivial
  | succ fuel ih =>
    unfold unprotectLoopP
    refine (overheadP_body _ _).bind' fun o => ?_
    split
    · refine Prog.body_lift fun x _ => ?_
      cases x with
      | error e => rfl
      | ok x =>
        obtain ⟨hd, vs', on'⟩ := x
        refine Prog.body_lift fun y _ => ?_
        cases y with
        | error e => rfl
        | ok y =>
          intro v
          refine (crypterUnprotectP_body hJ ..).bind' fun r => ?_
          split
          · rfl
          · exact Prog.body_lift fun rem' _ => ih _ _ _ _ _
    · rfl

/-- The direction a call concerns. -/
def Op.dir : Op → Half
  | .protect .. => .outbound
  | .protectInto .. => .outbound
  | .unprotect .. => .inbound
  | .unprotectInto .. => .inbound

theorem prog_stage {L : Lib} (hJ : Closed L J) (op : Op) :
    (op.prog L).Stage J op.dir (Spec.unprotectsInto op) false false := by
  cases op with
  | protect f vs =>
    show Prog.Stage _ _ _ _ _ ((protectP L f vs).bind fun r => Prog.done (Event.result r))
    unfold protectP
    intro n v
    show Prog.Stage _ _ _ _ _ (((Prog.locked .protectMu _).bind _).bind _)
    rw [Prog.bind_bind]
    refine locked_stage (protectLoopP_body hJ ..) fun a => ?_
    obtain ⟨st, out⟩ := a
    by_cases h : st ≠ .ok
    · exact ⟨.result ⟨st, []⟩, by simp only [if_pos h]; rfl⟩
    · exact ⟨.result ⟨.ok, [(.caller, out.bytes)]⟩, by simp only [if_neg h]; rfl⟩
  | protectInto f vs out =>
    exact locked_stage (protectLoopP_body hJ ..) fun a => ⟨_, rfl⟩
  | unprotect f vs =>
    show Prog.Stage _ _ _ _ _ ((unprotectP L f vs).bind fun r => Prog.done (Event.result r))
    unfold unprotectP
    intro n
    show Prog.Stage _ _ _ _ _ (Prog.bind (if totalLen vs < Record.kHeaderLength + 1 + n then _ else _) _)
    split
    · exact ⟨rfl, rfl⟩
    · exact locked_stage (unprotectLoopP_body hJ ..) fun a => ⟨_, rfl⟩
  | unprotectInto f vs out =>
    refine Prog.Body.stage_into ?_
    refine Prog.Body.bind (p := unprotectIntoP L f vs out)
      (k := fun x => Prog.done (Event.status x.1 x.2.1 x.2.2)) ?_ fun a => rfl
    unfold unprotectIntoP
    refine (overheadP_body _ _).bind' fun o => ?_
    split
    · rfl
    · refine Prog.body_lift fun x _ => ?_
      cases x with
      | error e => rfl
      | ok x =>
        obtain ⟨hd, vs', on'⟩ := x
        refine Prog.body_lift fun y _ => ?_
        cases y with
        | error e => rfl
        | ok y =>
          refine (crypterUnprotectP_body hJ ..).bind' fun r => ?_
          split <;> rfl

end S2A.Frame
