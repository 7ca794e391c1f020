import Verif.Spec.Threads
import Verif.Lemmas.Indep
/-
The programs of Model/Threads.lean, run alone, are the functions of Model/Frame.lean.
-/
namespace S2A.Frame
open Record (emap emap_bind bind_emap recordOverhead_eq)
open Spec (anonymous)

/-- What threads share of a protector. -/
def State.shared (s : State) : Shared := ⟨s.conn, s.next, s.evs⟩

/-- A program run without interruption. -/
def Prog.alone {α : Type} (A : Allocator) : Prog α → Shared → Exec (Shared × α)
  | .done a, s => .ok (s, a)
  | .ub e, _ => .error e
  | .acquire _ k, s => k.alone A s
  | .release _ k, s => k.alone A s
  | .tag h k, s => (k (getHalf s.conn h).tagLength).alone A s
  | .alloc n k, s => (k (A s.next n)).alone A { s with next := s.next + 1 }
  | .act a k, s =>
    (k (a.reply s.conn)).alone A { s with conn := a.conn s.conn, evs := s.evs ++ a.evs }
  | .use _ _ k, s => k.alone A s

variable {L : Lib} {A : Allocator}

theorem bind_assoc' {α β γ : Type} (x : Exec α) (f : α → Exec β) (g : β → Exec γ) :
    (x >>= f >>= g) = (x >>= fun a => f a >>= g) := by
  cases x <;> rfl

theorem Prog.alone_bind {α β : Type} (p : Prog α) (k : α → Prog β) (s : Shared) :
    (p.bind k).alone A s = (p.alone A s >>= fun x => (k x.2).alone A x.1) := by
  induction p generalizing s with
  | done a => rfl
  | ub e => rfl
  | acquire m p ih => exact ih s
  | release m p ih => exact ih s
  | tag h p ih => exact ih _ s
  | alloc n p ih => exact ih _ _
  | act a p ih => exact ih _ _
  | use h u p ih => exact ih s

theorem Prog.alone_bind' {α β : Type} (p : Prog α) (k : α → Prog β) (s : Shared) :
    (p >>= k).alone A s = (p.alone A s >>= fun x => (k x.2).alone A x.1) :=
  p.alone_bind k s

theorem Prog.alone_lift {α : Type} (x : Exec α) (s : Shared) :
    (Prog.lift x).alone A s = (x >>= fun a => .ok (s, a)) := by
  cases x <;> rfl

theorem Prog.alone_pure {α : Type} (a : α) (s : Shared) :
    (pure a : Prog α).alone A s = .ok (s, a) := rfl

theorem Prog.alone_locked {α : Type} (m : Mu) (p : Prog α) (s : Shared) :
    (Prog.locked m p).alone A s = p.alone A s := by
  unfold Prog.locked
  show (p.bind _).alone A s = _
  rw [Prog.alone_bind]
  cases p.alone A s <;> rfl

/-! ### The half connections -/

/-- The shared state with another crypter. -/
def Shared.with (s : Shared) (c : Record.Conn) : Shared := { s with conn := c }

theorem Prog.alone_readHalf (h : Half) (s : Shared) :
    (Prog.readHalf h).alone A s = .ok (s, getHalf s.conn h) := by
  simp [Prog.readHalf, Prog.alone, Act.reply, Act.conn, Act.evs]

theorem Prog.alone_writeHalf (h : Half) (hc : HalfConn) (s : Shared) :
    (Prog.writeHalf h hc).alone A s = .ok (s.with (setHalf s.conn h hc), ()) := by
  simp [Prog.writeHalf, Prog.alone, Act.reply, Act.conn, Act.evs, Shared.with]

theorem Prog.alone_readOwn (s : Shared) :
    Prog.readOwn.alone A s = .ok (s, own s.conn) := by
  simp [Prog.readOwn, Prog.alone, Act.reply, Act.conn, Act.evs]

theorem Prog.alone_writeOwn (c : Record.Conn) (s : Shared) :
    (Prog.writeOwn c).alone A s =
      .ok (s.with { c with inC := s.conn.inC, outC := s.conn.outC }, ()) := by
  simp [Prog.writeOwn, Prog.alone, Act.reply, Act.conn, Act.evs, Shared.with]

theorem Prog.alone_use (h : Half) (u : Spec.KeyUse) (s : Shared) :
    (Prog.use h u (.done ())).alone A s = .ok (s, ()) := rfl

@[simp] theorem Shared.with_conn (s : Shared) (c : Record.Conn) : (s.with c).conn = c := rfl
@[simp] theorem Shared.with_with (s : Shared) (c d : Record.Conn) :
    (s.with c).with d = s.with d := rfl
@[simp] theorem getHalf_setHalf (c : Record.Conn) (h : Half) (hc : HalfConn) :
    getHalf (setHalf c h hc) h = hc := by cases h <;> rfl
@[simp] theorem setHalf_setHalf (c : Record.Conn) (h : Half) (a b : HalfConn) :
    setHalf (setHalf c h a) h b = setHalf c h b := by cases h <;> rfl
@[simp] theorem setHalf_getHalf (c : Record.Conn) (h : Half) :
    setHalf c h (getHalf c h) = c := by cases h <;> rfl
@[simp] theorem Shared.with_self (s : Shared) : s.with s.conn = s := rfl

theorem cryptP_alone (h : Half) (aead : Aead.Crypter → Bytes → Exec Aead.Result)
    (aad data : Bytes) (out : Iovec) (s : Shared) :
    (cryptP h aead aad data out).alone A s =
      (if (getHalf s.conn h).alwaysFail || (getHalf s.conn h).overflowed then
        .ok (s, none, ⟨.internal, 0, out⟩)
      else do
        let (n, hc) ← (getHalf s.conn h).nonceMask
        let r ← aead (getHalf s.conn h).aead n
        .ok (s.with (setHalf s.conn h hc), some ⟨(getHalf s.conn h).aead.key, n, aad, data⟩, r)) := by
  unfold cryptP
  rw [Prog.alone_locked, Prog.alone_bind', Prog.alone_readHalf, exec_bind_ok]
  simp only []
  split
  · rfl
  · rw [Prog.alone_bind', Prog.alone_lift, bind_assoc']
    unfold HalfConn.nonceMask
    simp only [bind_assoc']
    congr 1; funext base
    simp only [Pure.pure, Except.pure, exec_bind_ok, Prog.alone_bind', Prog.alone_writeHalf,
      Prog.alone_readHalf, Prog.alone_use, Prog.alone_lift, bind_assoc', getHalf_setHalf,
      Shared.with_conn, Prog.alone_pure]
    rfl

theorem encryptP_alone (f : EvpFault) (h : Half) (aad pt : List Iovec) (out : Iovec) (s : Shared) :
    (encryptP L f h aad pt out).alone A s =
      emap (fun x => (s.with (setHalf s.conn h x.1), x.2))
        ((getHalf s.conn h).encrypt L f aad pt out) := by
  unfold encryptP HalfConn.encrypt
  rw [cryptP_alone]
  split
  · simp [emap]
  · rw [emap_bind]
    congr 1; funext x
    obtain ⟨n, hc⟩ := x
    simp only [emap_bind]
    rfl

theorem decryptP_alone (f : EvpFault) (h : Half) (aad ct : List Iovec) (out : Iovec) (s : Shared) :
    (decryptP L f h aad ct out).alone A s =
      emap (fun x => (s.with (setHalf s.conn h x.1), x.2))
        ((getHalf s.conn h).decrypt L f aad ct out) := by
  unfold decryptP HalfConn.decrypt
  rw [cryptP_alone]
  split
  · simp [emap]
  · rw [emap_bind]
    congr 1; funext x
    obtain ⟨n, hc⟩ := x
    simp only [emap_bind]
    rfl

theorem updateKeyP_alone (f : KeyFault) (h : Half) (s : Shared) :
    (updateKeyP L f h).alone A s =
      emap (fun x => (s.with (setHalf s.conn h x.1), x.2)) ((getHalf s.conn h).updateKey L f) := by
  unfold updateKeyP HalfConn.updateKey
  rw [Prog.alone_locked, Prog.alone_bind', Prog.alone_readHalf, exec_bind_ok]
  simp only [Prog.alone_bind', Prog.alone_lift, emap_bind, bind_assoc']
  congr 1; funext x
  obtain ⟨st, secret⟩ := x
  simp only [exec_bind_ok, Prog.alone_writeHalf]
  split
  · simp only [Prog.alone_bind', Prog.alone_writeHalf, exec_bind_ok, Shared.with_conn,
      Shared.with_with, setHalf_setHalf]
    rfl
  · simp only [Prog.alone_bind', Prog.alone_lift, bind_assoc', emap_bind]
    congr 1; funext x
    obtain ⟨st, key⟩ := x
    simp only [exec_bind_ok]
    split
    · simp only [Prog.alone_bind', Prog.alone_writeHalf, exec_bind_ok, Shared.with_conn,
        Shared.with_with, setHalf_setHalf]
      rfl
    · simp only [Prog.alone_bind', Prog.alone_lift, bind_assoc', emap_bind]
      congr 1; funext x
      obtain ⟨st, nonce⟩ := x
      simp only [exec_bind_ok, Prog.alone_writeHalf, Shared.with_conn, Shared.with_with,
        setHalf_setHalf]
      split
      · simp only [Prog.alone_bind', Prog.alone_writeHalf, exec_bind_ok, Shared.with_conn,
          Shared.with_with, setHalf_setHalf]
        rfl
      · cases HalfConn.createAead f.create (getHalf s.conn h).cs key with
        | error e =>
          simp only [Prog.alone_bind', Prog.alone_writeHalf, exec_bind_ok, Shared.with_conn,
            Shared.with_with, setHalf_setHalf]
          rfl
        | ok a =>
          simp only [Prog.alone_bind', Prog.alone_writeHalf, Prog.alone_use, exec_bind_ok,
            Shared.with_conn, Shared.with_with, setHalf_setHalf]
          rfl

/-! ### The crypter -/

/-- Other half connections. -/
def halves (i o : HalfConn) (c : Record.Conn) : Record.Conn := { c with inC := i, outC := o }

theorem retrieveAndSend_halves (c : Record.Conn) (i o : HalfConn) :
    Record.retrieveAndSend (halves i o c) = emap (halves i o) (Record.retrieveAndSend c) := by
  unfold Record.retrieveAndSend
  rw [emap_bind]
  show (c.handler.getStoredTickets >>= _) = _
  congr 1
  funext x
  obtain ⟨h, r⟩ := x
  cases r <;> rfl

theorem handleTickets_halves (c : Record.Conn) (r) (i o : HalfConn) :
    Record.handleTickets (halves i o c) r = emap (halves i o) (Record.handleTickets c r) := by
  have key : ∀ c1 : Record.Conn, (Record.retrieveAndSend (halves i o c1) >>= fun c =>
      (pure { c with expecting := false, phase := Record.Phase.done } : Exec Record.Conn)) =
      emap (halves i o) (Record.retrieveAndSend c1 >>= fun c =>
        (pure { c with expecting := false, phase := Record.Phase.done } : Exec Record.Conn)) := by
    intro c1
    rw [retrieveAndSend_halves, bind_emap, emap_bind]
    congr 1
  unfold Record.handleTickets
  show (match c.phase with | .done => _ | _ => _) = _
  cases hph : c.phase with
  | done => rfl
  | notReceived =>
    simp only
    cases hk : r.containsTicket
    · rfl
    · simp only [if_true, Bool.true_and]
      split
      · exact key { c with phase := .receiving }
      · rfl
  | receiving =>
    simp only
    cases hk : r.containsTicket
    · rfl
    · simp only [if_true, Bool.true_and]
      split
      · exact key { c with phase := .receiving }
      · rfl

/-- Working on the other members of the crypter. -/
theorem own_emap {F : Record.Conn → Exec Record.Conn}
    (hF : ∀ c i o, F (halves i o c) = emap (halves i o) (F c)) (c : Record.Conn) :
    emap (halves c.inC c.outC) (F (own c)) = F c := by
  have h1 : F (own c) = emap (halves noHalf noHalf) (F c) := hF c noHalf noHalf
  have h2 : F c = emap (halves c.inC c.outC) (F c) := hF c c.inC c.outC
  rw [h1]
  conv => rhs; rw [h2]
  cases F c <;> rfl

theorem overheadP_alone (s : Shared) :
    overheadP.alone A s = .ok (s, s.conn.recordOverhead) := rfl

theorem handleTicketsP_alone {β : Type} (r : Handler.Result) (b : β) (s : Shared) :
    (do
      let c ← Prog.readOwn
      let c ← Prog.lift (Record.handleTickets c r)
      Prog.writeOwn c
      return b : Prog β).alone A s =
    emap (fun c => (s.with c, b)) (Record.handleTickets s.conn r) := by
  rw [Prog.alone_bind', Prog.alone_readOwn, exec_bind_ok]
  simp only []
  rw [Prog.alone_bind', Prog.alone_lift, bind_assoc',
    ← own_emap (F := fun c => Record.handleTickets c r) (fun c i o => handleTickets_halves c r i o)
      s.conn]
  cases Record.handleTickets (own s.conn) r with
  | error e => rfl
  | ok c =>
    simp only [exec_bind_ok, Prog.alone_bind', Prog.alone_writeOwn]
    rfl

theorem handleResultP_alone (f : KeyFault) (r) (s : Shared) :
    (handleResultP L f r).alone A s =
      emap (fun x => (s.with x.1, x.2)) (Record.handleResult L f s.conn r) := by
  unfold handleResultP Record.handleResult
  cases r with
  | error e => rfl
  | ok r =>
    simp only [Prog.alone_bind', Prog.alone_readOwn, Prog.alone_writeOwn, exec_bind_ok]
    generalize hs : s.with _ = s1
    have e1 : s1 = s.with { s.conn with expecting := r.expecting } := hs.symm
    clear hs
    cases r.containsKeyUpdate with
    | false =>
      simp only [Bool.false_eq_true, if_false]
      rw [handleTicketsP_alone, emap_bind, e1]
      simp only [Shared.with_conn, Shared.with_with]
      cases Record.handleTickets { s.conn with expecting := r.expecting } r <;> rfl
    | true =>
      simp only [if_true]
      rw [Prog.alone_bind', updateKeyP_alone, bind_emap, emap_bind, e1]
      show (HalfConn.updateKey L f s.conn.inC >>= _) = _
      congr 1; funext x
      obtain ⟨hc, st⟩ := x
      simp only [Shared.with_conn, Shared.with_with]
      by_cases hst : st ≠ .ok
      · rw [if_pos hst, if_pos hst]; rfl
      · rw [if_neg hst, if_neg hst, handleTicketsP_alone, emap_bind]
        simp only [Shared.with_conn, Shared.with_with]
        show emap _ (Record.handleTickets { s.conn with expecting := r.expecting, inC := hc } r) = _
        cases Record.handleTickets { s.conn with expecting := r.expecting, inC := hc } r <;> rfl

theorem dispatchP_alone (f : KeyFault) (call) (pt : Bytes) (w : Nat) (s : Shared) :
    (dispatchP L f call pt w).alone A s =
      emap (fun x => (s.with x.1, x.2)) (Record.dispatch L f s.conn call pt w) := by
  unfold dispatchP Record.dispatch
  rw [Prog.alone_bind', Prog.alone_lift, bind_assoc', emap_bind]
  congr 1; funext x
  simp only [exec_bind_ok]
  cases x with
  | none => rfl
  | some x =>
    obtain ⟨n, t⟩ := x
    simp only []
    split
    · split
      · rfl
      · generalize pt[1]? = l
        cases l with
        | none => rfl
        | some l =>
          simp only []
          split
          · simp only [Prog.alone_bind', Prog.alone_readOwn, Prog.alone_writeOwn, exec_bind_ok]
            rfl
          · rfl
    · split
      · rw [Prog.alone_bind', Prog.alone_readOwn, exec_bind_ok]
        simp only []
        rw [Prog.alone_bind', Prog.alone_lift, bind_assoc', emap_bind]
        show (s.conn.handler.process (pt.take n) >>= _) = _
        congr 1; funext y
        obtain ⟨h, r⟩ := y
        simp only [exec_bind_ok, Prog.alone_bind', Prog.alone_writeOwn]
        rw [handleResultP_alone, bind_emap, emap_bind]
        show (Record.handleResult L f { s.conn with handler := h } r >>= _) = _
        congr 1; funext z
        obtain ⟨c, st, rekey⟩ := z
        simp only [Shared.with_with]
        split <;> rfl
      · split
        · rw [Prog.alone_bind', Prog.alone_readOwn, exec_bind_ok]
          show Prog.alone A (if s.conn.expecting = true then _ else
            if s.conn.phase = .receiving then _ else _) s = _
          split
          · rfl
          · split
            · rw [Prog.alone_bind', Prog.alone_lift, bind_assoc', emap_bind,
                ← own_emap (F := Record.retrieveAndSend)
                  (fun c i o => retrieveAndSend_halves c i o) s.conn, bind_emap]
              congr 1; funext c
              simp only [exec_bind_ok, Prog.alone_bind', Prog.alone_writeOwn]
              rfl
            · rfl
        · rfl

theorem openP_alone (f : Record.Fault) (hd : Iovec) (pl : List Iovec) (out : Iovec) (s : Shared) :
    (openP L f hd pl out).alone A s =
      emap (fun x => (s.with x.1, x.2)) (Record.unprotect L f s.conn hd pl out) := by
  unfold openP Record.unprotect
  rw [Prog.alone_bind', Prog.alone_readOwn, exec_bind_ok]
  show Prog.alone A (if s.conn.closeNotify = true then _ else _) s = _
  split
  · rfl
  · simp only [Prog.alone_bind', overheadP_alone, exec_bind_ok]
    split
    · rfl
    · simp only [Prog.alone_bind', overheadP_alone, exec_bind_ok]
      split
      · rfl
      · split
        · rfl
        · rw [Prog.alone_bind', decryptP_alone, bind_emap, emap_bind]
          show (HalfConn.decrypt L f.evp s.conn.inC [hd] pl out >>= _) = _
          congr 1; funext x
          obtain ⟨hc, call, r⟩ := x
          simp only []
          split
          · rw [Prog.alone_bind', Prog.alone_lift, bind_assoc', emap_bind]
            rfl
          · cases r.out with
            | null n => rfl
            | buf pt =>
              simp only []
              rw [dispatchP_alone]
              rfl

theorem sealP_alone (f : EvpFault) (rt) (pt : List Iovec) (out : Iovec) (s : Shared) :
    (sealP L f rt pt out).alone A s =
      emap (fun x => (s.with x.1, x.2)) (Record.protect L f s.conn rt pt out) := by
  unfold sealP Record.protect
  simp only []
  split
  · rfl
  · simp only [Prog.alone_bind', overheadP_alone, exec_bind_ok]
    split
    · rfl
    · simp only [Prog.alone_bind', Prog.alone, exec_bind_ok]
      cases out with
      | null n => rfl
      | buf rb =>
        simp only []
        rw [Prog.alone_bind', Prog.alone_lift, bind_assoc', emap_bind]
        show (writeAt rb 0 (Record.headerBytes (totalLen pt + 1 + s.conn.outC.tagLength)) >>= _) = _
        congr 1; funext rb'
        simp only [exec_bind_ok]
        cases Record.convertRecordType rt with
        | error e => rfl
        | ok t =>
          simp only []
          rw [Prog.alone_bind', Prog.alone_lift, bind_assoc', emap_bind]
          congr 1; funext rest
          simp only [exec_bind_ok]
          rw [Prog.alone_bind', encryptP_alone, bind_emap, emap_bind]
          show (HalfConn.encrypt L f s.conn.outC _ _ _ >>= _) = _
          congr 1; funext x
          obtain ⟨hc, call, r⟩ := x
          simp only []
          split <;> rfl

theorem crypterProtectP_alone (f : EvpFault) (pt : List Iovec) (out : Iovec) (s : Shared) :
    (crypterProtectP L f pt out).alone A s =
      (Record.protect L f s.conn .applicationData pt out >>= fun x =>
        .ok ({ s with conn := x.1, evs := s.evs ++ [.sealed x.2] }, x.2)) := by
  unfold crypterProtectP
  rw [Prog.alone_bind', sealP_alone, bind_emap]
  rfl

theorem crypterUnprotectP_alone (f : Record.Fault) (hd : Bytes) (pl : List Iovec) (out : Iovec)
    (s : Shared) :
    (crypterUnprotectP L f hd pl out).alone A s =
      (Record.unprotect L f s.conn (.buf hd) pl out >>= fun x =>
        .ok ({ s with conn := x.1, evs := s.evs ++ [.opened x.2] }, x.2)) := by
  unfold crypterUnprotectP
  rw [Prog.alone_bind', openP_alone, bind_emap]
  rfl

/-! ### The frame protector -/

theorem protectLoopP_alone (f : Nat → EvpFault) (id : BufId) (fuel i : Nat) (s : State)
    (vs : List Iovec) (on : Nat) (first : Bool) (rem idx : Nat) (out : Iovec) :
    (protectLoopP L f fuel i vs on first rem idx out).alone A s.shared =
      emap (fun x => (x.1.shared, x.2)) (protectLoop L f id fuel i s vs on first rem idx out) := by
  induction fuel generalizing i s vs on first rem idx out with
  | zero => rfl
  | succ fuel ih =>
    unfold protectLoopP protectLoop
    split
    · generalize (if rem < kMaxPlaintext then rem else kMaxPlaintext) = n
      simp only [Prog.alone_bind', Prog.alone_lift, emap_bind, bind_assoc', State.crypterProtect,
        exec_bind_ok]
      congr 1; funext x
      congr 1; funext room
      congr 1; funext slot
      simp only [crypterProtectP_alone, bind_assoc', State.shared, exec_bind_ok]
      congr 1; funext y
      simp only [exec_bind_ok, Pure.pure, Except.pure]
      split
      · rfl
      · simp only [Prog.alone_bind', Prog.alone, overheadP_alone, exec_bind_ok]
        split
        · rfl
        · exact ih _ { s with conn := y.1, evs := s.evs ++ [.sealed y.2] } _ _ _ _ _ _
    · rfl

theorem protectIntoP_alone (f : Nat → EvpFault) (id : BufId) (s : State) (vs : List Iovec)
    (out : Iovec) : (protectIntoP L f vs out).alone A s.shared =
      emap (fun x => (x.1.shared, x.2)) (protectInto L f s id vs out) := by
  unfold protectIntoP protectInto
  rw [Prog.alone_locked]
  exact protectLoopP_alone f id _ _ s _ _ _ _ _ _

theorem protectP_alone (f : Nat → EvpFault) (s : State) (vs : List Iovec) :
    (protectP L f vs).alone A s.shared =
      emap (fun x => (x.1.shared, ⟨x.2.status, x.2.bytes.map fun b => (.caller, b.2)⟩))
        (protect L A f s vs) := by
  unfold protectP protect
  simp only [Prog.alone_bind', Prog.alone, overheadP_alone, exec_bind_ok, State.alloc]
  have h := protectIntoP_alone (L := L) (A := A) f (.heap s.next)
    { s with next := s.next + 1, mem := s.mem ++ [.alloc (.heap s.next)
      (numberBytesToProtect s (totalLen vs))] } vs
    (A s.next (numberBytesToProtect s (totalLen vs)))
  simp only [State.shared] at h ⊢
  have e : protectedSize s.conn.recordOverhead (totalLen vs) =
    numberBytesToProtect s (totalLen vs) := rfl
  rw [e, h, bind_emap, emap_bind]
  congr 1
  funext x
  obtain ⟨s', st, o⟩ := x
  simp only []
  split <;> rfl

theorem unprotectIntoP_alone (f : Record.Fault) (s : State) (vs : List Iovec) (out : Iovec) :
    (unprotectIntoP L f vs out).alone A s.shared =
      emap (fun x => (x.1.shared, x.2)) (unprotectInto L f s vs out) := by
  unfold unprotectIntoP unprotectInto
  have e : ∀ n, numberBytesToUnprotect s n = unprotectedSize s.shared.conn.recordOverhead n :=
    fun _ => rfl
  simp only [Prog.alone_bind', Prog.alone, overheadP_alone, exec_bind_ok, e]
  split
  · rfl
  · rw [Prog.alone_bind', Prog.alone_lift, bind_assoc', emap_bind]
    congr 1; funext x
    simp only [exec_bind_ok]
    cases x with
    | error e => rfl
    | ok x =>
      obtain ⟨hd, vs', on⟩ := x
      simp only []
      rw [Prog.alone_bind', Prog.alone_lift, bind_assoc', emap_bind]
      congr 1; funext y
      simp only [exec_bind_ok]
      cases y with
      | error e => rfl
      | ok y =>
        obtain ⟨pl, vs'', on'⟩ := y
        simp only [Prog.alone_bind', crypterUnprotectP_alone, State.crypterUnprotect, State.shared, bind_assoc',
          emap_bind]
        congr 1; funext z
        simp only [exec_bind_ok, Pure.pure, Except.pure]
        split <;> rfl

theorem destroyAll_shared (s : State) (bs : List (BufId × Bytes)) :
    (s.destroyAll bs).shared = s.shared := by
  induction bs generalizing s with
  | nil => rfl
  | cons b bs ih => exact ih _

theorem unprotectLoopP_alone (f : Nat → Record.Fault) (fuel i : Nat) (s : State)
    (vs : List Iovec) (on rem : Nat) (done : List (BufId × Bytes)) :
    (unprotectLoopP L f fuel i vs on rem (done.map fun b => (.caller, b.2))).alone A s.shared =
      emap (fun x => (x.1.shared, ⟨x.2.status, x.2.bytes.map fun b => (.caller, b.2)⟩))
        (unprotectLoop L A f fuel i s vs on rem done) := by
  induction fuel generalizing i s vs on rem done with
  | zero => rfl
  | succ fuel ih =>
    unfold unprotectLoopP unprotectLoop
    simp only [Prog.alone_bind', Prog.alone, overheadP_alone, exec_bind_ok]
    show Prog.alone A (if rem ≥ s.conn.recordOverhead then _ else _) _ = _
    split
    · rw [Prog.alone_bind', Prog.alone_lift, bind_assoc', emap_bind]
      congr 1; funext x
      simp only [exec_bind_ok]
      cases x with
      | error e => rfl
      | ok x =>
        obtain ⟨hd, vs', on'⟩ := x
        simp only []
        rw [Prog.alone_bind', Prog.alone_lift, bind_assoc', emap_bind]
        congr 1; funext y
        simp only [exec_bind_ok]
        cases y with
        | error e => rfl
        | ok y =>
          obtain ⟨pl, vs'', on''⟩ := y
          simp only [Prog.alone_bind', Prog.alone, crypterUnprotectP_alone, exec_bind_ok, State.crypterUnprotect,
            State.shared, State.alloc, bind_assoc', emap_bind]
          congr 1; funext z
          simp only [exec_bind_ok, Pure.pure, Except.pure]
          split
          · simp only [Prog.alone, emap, List.map_nil]
            have := destroyAll_shared
              (State.destroy { s with
                next := s.next + 1, mem := s.mem ++ [.alloc (.heap s.next) (payloadSize hd)]
                conn := z.1, evs := s.evs ++ [.opened z.2] } (.heap s.next)
                (A s.next (payloadSize hd)).len) done
            simp only [State.shared] at this
            rw [this]
            rfl
          · rw [Prog.alone_bind', Prog.alone_lift, bind_assoc', emap_bind]
            congr 1; funext rem'
            simp only [exec_bind_ok]
            have := ih (i + 1) { s with
                next := s.next + 1, mem := s.mem ++ [.alloc (.heap s.next) (payloadSize hd)]
                conn := z.1, evs := s.evs ++ [.opened z.2] } vs'' on'' rem'
                (done ++ [(.heap s.next, z.2.out.bytes.take z.2.written)])
            rw [List.map_append] at this
            exact this
    · rfl

theorem unprotectP_alone (f : Nat → Record.Fault) (s : State) (vs : List Iovec) :
    (unprotectP L f vs).alone A s.shared =
      emap (fun x => (x.1.shared, ⟨x.2.status, x.2.bytes.map fun b => (.caller, b.2)⟩))
        (unprotect L A f s vs) := by
  unfold unprotectP unprotect
  simp only [Prog.alone_bind', Prog.alone, overheadP_alone, exec_bind_ok]
  show Prog.alone A (if totalLen vs < s.conn.recordOverhead then _ else _) _ = _
  split
  · rfl
  · rw [Prog.alone_locked]
    exact unprotectLoopP_alone f _ _ s _ _ _ []

/-- Alone, a call does what Model/Frame.lean says. -/
theorem prog_alone (op : Op) (s : State) : (op.prog L).alone A s.shared =
    emap (fun x => (x.1.shared, anonymous x.2)) (step L A s op) := by
  cases op with
  | protect f vs =>
    simp only [Op.prog, step]
    rw [Prog.alone_bind', protectP_alone, bind_emap, emap_bind]
    congr 1
  | protectInto f vs out =>
    simp only [Op.prog, step]
    rw [Prog.alone_bind', protectIntoP_alone f .caller, bind_emap, emap_bind]
    congr 1
  | unprotect f vs =>
    simp only [Op.prog, step]
    rw [Prog.alone_bind', unprotectP_alone, bind_emap, emap_bind]
    congr 1
  | unprotectInto f vs out =>
    simp only [Op.prog, step]
    rw [Prog.alone_bind', unprotectIntoP_alone, bind_emap, emap_bind]
    congr 1

end S2A.Frame
