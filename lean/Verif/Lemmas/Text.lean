import Verif.Model.Text
import Verif.Lemmas.TextCrypto
/-
Without the texts the functions of Model/Text.lean are those of the model.
-/
namespace S2A

variable {α β γ δ : Type}

theorem withText_quiet (m : String) (x : Except StatusCode α) : quiet (withText m x) = x := by
  cases x <;> rfl

namespace Record

theorem createT_quiet (L : Lib) (fIn fOut : KeyFault) (xIn xOut : LibText) (a : CreateArgs) :
    (createT L fIn fOut xIn xOut a).map quiet = create L fIn fOut a := by
  unfold createT create
  by_cases h1 : a.url.isEmpty = true
  · rw [if_pos h1, if_pos h1]; rfl
  rw [if_neg h1, if_neg h1]
  by_cases h2 : (!a.hasLogger) = true
  · rw [if_pos h2, if_pos h2]; rfl
  rw [if_neg h2, if_neg h2]
  by_cases h3 : (!a.hasSender) = true
  · rw [if_pos h3, if_pos h3]; rfl
  rw [if_neg h3, if_neg h3]
  by_cases h4 : a.tlsVersion ≠ .tls1_3
  · rw [if_pos h4, if_pos h4]; rfl
  rw [if_neg h4, if_neg h4]
  rw [← HalfConn.createT_quiet L fIn xIn, ← HalfConn.createT_quiet L fOut xOut]
  cases HalfConn.createT L fIn xIn a.ciphersuite a.inSequence a.inSecret with
  | error u => rfl
  | ok x =>
    cases x with
    | error e => rfl
    | ok inC =>
      cases HalfConn.createT L fOut xOut a.ciphersuite a.outSequence a.outSecret with
      | error u => rfl
      | ok y => cases y <;> rfl

theorem protectT_mute (L : Lib) (f : EvpFault) (q : String) (c : Conn) (rt : RecordType)
    (plaintext : List Iovec) (record : Iovec) :
    mute (protectT L f q c rt plaintext record) = protect L f c rt plaintext record := by
  unfold protectT protect
  simp only
  by_cases h1 : totalLen plaintext > kMaxPlaintext
  · rw [if_pos h1, if_pos h1]; rfl
  rw [if_neg h1, if_neg h1]
  by_cases h2 : record.len < totalLen plaintext + c.recordOverhead
  · rw [if_pos h2, if_pos h2]; rfl
  rw [if_neg h2, if_neg h2]
  cases record with
  | null n => rfl
  | buf rb =>
    show mute (writeAt rb 0 _ >>= _) = writeAt rb 0 _ >>= _
    rw [mute_bind]
    congr 1
    funext rb
    cases convertRecordType rt with
    | error e => rfl
    | ok t =>
      show mute ((Iovec.buf rb).slice _ _ >>= _) = (Iovec.buf rb).slice _ _ >>= _
      rw [mute_bind]
      congr 1
      funext rest
      refine bind_mute _ _ _ _ (HalfConn.encryptT_mute ..) ?_
      intro x m
      obtain ⟨outC, call, r⟩ := x
      show mute (if r.status ≠ .ok then _ else _) = if r.status ≠ .ok then _ else _
      by_cases h4 : r.status ≠ .ok
      · rw [if_pos h4, if_pos h4]; rfl
      · rw [if_neg h4, if_neg h4]; rfl

theorem retrieveAndSendT_mute (c : Conn) : mute (retrieveAndSendT c) = retrieveAndSend c := by
  unfold retrieveAndSendT retrieveAndSend
  cases c.handler.getStoredTickets with
  | error u => rfl
  | ok x =>
    obtain ⟨h, r⟩ := x
    cases r <;> rfl

theorem handleTicketsT_mute (c : Conn) (r : Handler.Result) :
    mute (handleTicketsT c r) = handleTickets c r := by
  unfold handleTicketsT handleTickets
  cases hp : c.phase with
  | done => rfl
  | _ =>
    simp only
    generalize (if r.containsTicket then { c with phase := .receiving } else c) = c'
    by_cases h : (r.containsTicket && decide (r.numFull ≥ Handler.kMaxTickets)) = true
    · rw [if_pos h, if_pos h]
      exact bind_mute _ _ _ _ (retrieveAndSendT_mute c') (fun _ _ => rfl)
    · rw [if_neg h, if_neg h]; rfl

theorem handleResultT_mute (L : Lib) (f : KeyFault) (msg : String) (c : Conn)
    (r : Except StatusCode Handler.Result) :
    mute (handleResultT L f msg c r) = handleResult L f c r := by
  unfold handleResultT handleResult
  cases r with
  | error e => rfl
  | ok r =>
    simp only
    by_cases h : r.containsKeyUpdate = true
    · rw [if_pos h, if_pos h, mute_bind]
      congr 1
      funext x
      obtain ⟨inC, st⟩ := x
      show mute (if st ≠ .ok then _ else _) = if st ≠ .ok then _ else _
      by_cases h2 : st ≠ .ok
      · rw [if_pos h2, if_pos h2]; rfl
      · rw [if_neg h2, if_neg h2]
        exact bind_mute _ _ _ _ (handleTicketsT_mute _ r) (fun _ _ => rfl)
    · rw [if_neg h, if_neg h]
      exact bind_mute _ _ _ _ (handleTicketsT_mute _ r) (fun _ _ => rfl)

theorem dispatchT_mute (L : Lib) (f : KeyFault) (c : Conn) (call : Option HalfConn.AeadCall)
    (pt : Bytes) (w : Nat) : mute (dispatchT L f c call pt w) = dispatch L f c call pt w := by
  unfold dispatchT dispatch
  rw [mute_bind]
  congr 1
  funext x
  match x with
  | none => rfl
  | some (n, t) =>
    show mute (if t = kAlert then _ else _) = if t = kAlert then _ else _
    by_cases h1 : t = kAlert
    · rw [if_pos h1, if_pos h1]
      by_cases h2 : n < 2
      · rw [if_pos h2, if_pos h2]; rfl
      · rw [if_neg h2, if_neg h2]
        cases pt[1]? with
        | none => rfl
        | some level =>
          show mute (if level = kCloseNotify then _ else _) = if level = kCloseNotify then _ else _
          by_cases h3 : level = kCloseNotify
          · rw [if_pos h3, if_pos h3]; rfl
          · rw [if_neg h3, if_neg h3]; rfl
    rw [if_neg h1, if_neg h1]
    by_cases h2 : t = kHandshake
    · rw [if_pos h2, if_pos h2, mute_bind]
      congr 1
      funext x
      obtain ⟨h, r⟩ := x
      refine bind_mute _ _ _ _ (handleResultT_mute L f (processMessage h) _ r) ?_
      intro a b
      obtain ⟨c, st, rekey⟩ := a
      show mute (if st ≠ .ok then _ else _) = if st ≠ .ok then _ else _
      by_cases h3 : st ≠ .ok
      · rw [if_pos h3, if_pos h3]; rfl
      · rw [if_neg h3, if_neg h3]; rfl
    rw [if_neg h2, if_neg h2]
    by_cases h3 : t = kAppData
    · rw [if_pos h3, if_pos h3]
      by_cases h4 : c.expecting = true
      · rw [if_pos h4, if_pos h4]; rfl
      rw [if_neg h4, if_neg h4]
      by_cases h5 : c.phase = .receiving
      · rw [if_pos h5, if_pos h5]
        exact bind_mute _ _ _ _ (retrieveAndSendT_mute c) (fun _ _ => rfl)
      · rw [if_neg h5, if_neg h5]; rfl
    · rw [if_neg h3, if_neg h3]; rfl

theorem unprotectT_mute (L : Lib) (f : Fault) (q : String) (c : Conn) (header : Iovec)
    (payload : List Iovec) (out : Iovec) :
    mute (unprotectT L f q c header payload out) = unprotect L f c header payload out := by
  unfold unprotectT unprotect
  simp only
  by_cases h1 : c.closeNotify = true
  · rw [if_pos h1, if_pos h1]; rfl
  rw [if_neg h1, if_neg h1]
  by_cases h2 : header.len + totalLen payload < c.recordOverhead
  · rw [if_pos h2, if_pos h2]; rfl
  rw [if_neg h2, if_neg h2]
  by_cases h3 : header.len + totalLen payload > c.recordOverhead + kMaxPlaintext
  · rw [if_pos h3, if_pos h3]; rfl
  rw [if_neg h3, if_neg h3]
  by_cases h4 : (!validateHeader header (header.len + totalLen payload)) = true
  · rw [if_pos h4, if_pos h4]; rfl
  rw [if_neg h4, if_neg h4]
  refine bind_mute _ _ _ _ (HalfConn.decryptT_mute ..) ?_
  intro x m
  obtain ⟨inC, call, r⟩ := x
  show mute (if r.status ≠ .ok then _ else _) = if r.status ≠ .ok then _ else _
  by_cases h5 : r.status ≠ .ok
  · rw [if_pos h5, if_pos h5]
    simp only [mute_bind]
    rfl
  · rw [if_neg h5, if_neg h5]
    cases r.out with
    | null n => rfl
    | buf pt => exact dispatchT_mute L f.key _ call pt r.written

end Record

namespace Frame

theorem createT_quiet (L : Lib) (fIn fOut : KeyFault) (xIn xOut : LibText) (o : Options) :
    (createT L fIn fOut xIn xOut o).map quiet = create L fIn fOut o := by
  unfold createT create
  by_cases h1 : (!o.hasAllocator || !o.hasDestroy || !o.crypter.hasLogger) = true
  · rw [if_pos h1, if_pos h1]; rfl
  rw [if_neg h1, if_neg h1, ← Record.createT_quiet L fIn fOut xIn xOut]
  cases Record.createT L fIn fOut xIn xOut { o.crypter with hasSender := true } with
  | error u => rfl
  | ok x => cases x <;> rfl

theorem crypterProtectT_mute (L : Lib) (f : EvpFault) (q : String) (s : State)
    (pt : List Iovec) (record : Iovec) :
    mute (s.crypterProtectT L f q pt record) = s.crypterProtect L f pt record :=
  bind_mute _ _ _ _ (Record.protectT_mute L f q s.conn .applicationData pt record)
    (fun _ _ => rfl)

theorem crypterUnprotectT_mute (L : Lib) (f : Record.Fault) (q : String) (s : State)
    (header : Bytes) (payload : List Iovec) (out : Iovec) :
    mute (s.crypterUnprotectT L f q header payload out) =
      s.crypterUnprotect L f header payload out :=
  bind_mute _ _ _ _ (Record.unprotectT_mute L f q s.conn (.buf header) payload out)
    (fun _ _ => rfl)

theorem protectLoopT_mute (L : Lib) (f : Nat → EvpFault) (errs : Nat → String) (id : BufId) :
    ∀ (fuel i : Nat) (s : State) (vs : List Iovec) (on : Nat) (first : Bool) (rem idx : Nat)
      (out : Iovec) (log : List String),
      mute (protectLoopT L f errs id fuel i s vs on first rem idx out log) =
        protectLoop L f id fuel i s vs on first rem idx out := by
  intro fuel
  induction fuel with
  | zero => intros; rfl
  | succ fuel ih =>
    intro i s vs on first rem idx out log
    unfold protectLoopT protectLoop
    by_cases h1 : (first || decide (rem > 0)) = true
    · rw [if_pos h1, if_pos h1]
      simp only
      generalize (if rem < kMaxPlaintext then rem else kMaxPlaintext) = n
      rw [mute_bind]
      congr 1
      funext x
      obtain ⟨pieces, vs, on⟩ := x
      rw [mute_bind]
      congr 1
      funext room
      rw [mute_bind]
      congr 1
      funext slot
      refine bind_mute _ _ _ _ (crypterProtectT_mute L (f i) (errs i) s pieces slot) ?_
      intro a b
      obtain ⟨s, r⟩ := a
      show mute (if r.code ≠ .ok then _ else _) = if r.code ≠ .ok then _ else _
      by_cases h2 : r.code ≠ .ok
      · rw [if_pos h2, if_pos h2]; rfl
      rw [if_neg h2, if_neg h2]
      by_cases h3 : r.written ≠ n + s.conn.recordOverhead
      · rw [if_pos h3, if_pos h3]; rfl
      · rw [if_neg h3, if_neg h3]
        exact ih ..
    · rw [if_neg h1, if_neg h1]; rfl

theorem protectIntoT_mute (L : Lib) (f : Nat → EvpFault) (errs : Nat → String) (s : State)
    (id : BufId) (vs : List Iovec) (out : Iovec) :
    mute (protectIntoT L f errs s id vs out) = protectInto L f s id vs out :=
  protectLoopT_mute ..

theorem protectT_mute (L : Lib) (A : Allocator) (f : Nat → EvpFault) (errs : Nat → String)
    (s : State) (vs : List Iovec) :
    mute (protectT L A f errs s vs) = protect L A f s vs := by
  unfold protectT protect
  refine bind_mute _ _ _ _ (protectIntoT_mute ..) ?_
  intro a b
  obtain ⟨s, st, out⟩ := a
  show mute (if st ≠ .ok then _ else _) = if st ≠ .ok then _ else _
  by_cases h2 : st ≠ .ok
  · rw [if_pos h2, if_pos h2]; rfl
  · rw [if_neg h2, if_neg h2]; rfl

theorem readHeaderT_quiet : ∀ (k i : Nat) (vs : List Iovec) (on : Nat),
    (readHeaderT k i vs on).map quiet = readHeader k i vs on := by
  intro k
  induction k with
  | zero => intros; rfl
  | succ k ih =>
    intro i vs on
    cases vs with
    | nil => rfl
    | cons v vs =>
      unfold readHeaderT readHeader
      cases v with
      | null n => rfl
      | buf d =>
        simp only
        cases (Iovec.buf d).byteAt on with
        | error u => rfl
        | ok b =>
          show Except.map quiet (if _ then _ else _) = if _ then _ else _
          by_cases h : (!headerByteOk i b) = true
          · rw [if_pos h, if_pos h]; rfl
          · rw [if_neg h, if_neg h, ← ih]
            cases readHeaderT k (i + 1) (advance (Iovec.buf d) vs (on + 1)).1
                (advance (Iovec.buf d) vs (on + 1)).2 with
            | error u => rfl
            | ok x => cases x <;> rfl

theorem unprotectIntoT_mute (L : Lib) (f : Record.Fault) (q : String) (s : State)
    (vs : List Iovec) (out : Iovec) :
    mute (unprotectIntoT L f q s vs out) = unprotectInto L f s vs out := by
  unfold unprotectIntoT unprotectInto
  by_cases h1 : numberBytesToUnprotect s (totalLen vs) = 0
  · rw [if_pos h1, if_pos h1]; rfl
  rw [if_neg h1, if_neg h1, ← readHeaderT_quiet]
  cases readHeaderT kHeaderLength 0 vs 0 with
  | error u => rfl
  | ok x =>
    cases x with
    | error e => rfl
    | ok y =>
      obtain ⟨header, vs, on⟩ := y
      show mute (isolate vs on (payloadSize header) >>= _) = isolate vs on (payloadSize header) >>= _
      rw [mute_bind]
      congr 1
      funext z
      cases z with
      | error e => rfl
      | ok w =>
        obtain ⟨payload, a, b⟩ := w
        refine bind_mute _ _ _ _ (crypterUnprotectT_mute L f q s header payload out) ?_
        intro a b
        obtain ⟨s, r⟩ := a
        show mute (if r.code ≠ .ok then _ else _) = if r.code ≠ .ok then _ else _
        by_cases h2 : r.code ≠ .ok
        · rw [if_pos h2, if_pos h2]; rfl
        · rw [if_neg h2, if_neg h2]; rfl

theorem unprotectLoopT_mute (L : Lib) (A : Allocator) (f : Nat → Record.Fault)
    (errs : Nat → String) : ∀ (fuel i : Nat) (s : State) (vs : List Iovec) (on rem : Nat)
      (done : List (BufId × Bytes)) (log : List String),
      mute (unprotectLoopT L A f errs fuel i s vs on rem done log) =
        unprotectLoop L A f fuel i s vs on rem done := by
  intro fuel
  induction fuel with
  | zero => intros; rfl
  | succ fuel ih =>
    intro i s vs on rem done log
    unfold unprotectLoopT unprotectLoop
    by_cases h1 : rem ≥ s.conn.recordOverhead
    · rw [if_pos h1, if_pos h1, ← readHeaderT_quiet]
      cases readHeaderT kHeaderLength 0 vs on with
      | error u => rfl
      | ok x =>
        cases x with
        | error e => rfl
        | ok y =>
          obtain ⟨header, vs, on⟩ := y
          show mute (isolate vs on (payloadSize header) >>= _) =
            isolate vs on (payloadSize header) >>= _
          rw [mute_bind]
          congr 1
          funext z
          cases z with
          | error e => rfl
          | ok w =>
            obtain ⟨payload, vs, on⟩ := w
            refine bind_mute _ _ _ _ (crypterUnprotectT_mute L (f i) (errs i) _ header payload _) ?_
            intro a b
            obtain ⟨s, r⟩ := a
            show mute (if r.code ≠ .ok then _ else _) = if r.code ≠ .ok then _ else _
            by_cases h2 : r.code ≠ .ok
            · rw [if_pos h2, if_pos h2]; rfl
            · rw [if_neg h2, if_neg h2, mute_bind]
              congr 1
              funext rem
              exact ih ..
    · rw [if_neg h1, if_neg h1]; rfl

theorem unprotectT_mute (L : Lib) (A : Allocator) (f : Nat → Record.Fault) (errs : Nat → String)
    (s : State) (vs : List Iovec) :
    mute (unprotectT L A f errs s vs) = unprotect L A f s vs := by
  unfold unprotectT unprotect
  simp only
  by_cases h1 : totalLen vs < s.conn.recordOverhead
  · rw [if_pos h1, if_pos h1]; rfl
  · rw [if_neg h1, if_neg h1]
    exact unprotectLoopT_mute ..

/-- One call on a frame protector: without the texts it is the call of the model. -/
theorem stepT_mute (L : Lib) (A : Allocator) (errs : Nat → String) (s : State) (op : Op) :
    mute (stepT L A errs s op) = step L A s op := by
  cases op with
  | protect f vs => exact bind_mute _ _ _ _ (protectT_mute ..) (fun _ _ => rfl)
  | protectInto f vs out => exact bind_mute _ _ _ _ (protectIntoT_mute ..) (fun _ _ => rfl)
  | unprotect f vs => exact bind_mute _ _ _ _ (unprotectT_mute ..) (fun _ _ => rfl)
  | unprotectInto f vs out => exact bind_mute _ _ _ _ (unprotectIntoT_mute ..) (fun _ _ => rfl)

end Frame

namespace Proxy
open S2A.Proto S2A.Util

theorem finishRequestT_mute (why : Nat → String) (e : Env) (s : State) (kind : ReqKind)
    (error : String) : (finishRequestT why e s kind error).1 = finishRequest e s kind := by
  unfold finishRequestT finishRequest
  cases populate e s
  simp only
  split <;> rfl

theorem clientStartT_quiet (e : Env) (s : State) : quiet (clientStartT e s) = clientStart e s := by
  unfold clientStartT clientStart
  simp only [quiet_bind, withText_quiet]
  congr 1; funext a
  congr 1; funext b
  congr 1; funext c
  congr 1; funext d
  split
  · rfl
  · simp only [quiet_bind, withText_quiet]
    rfl

theorem serverStartT_quiet (e : Env) (s : State) (bytes : Option Bytes) :
    quiet (serverStartT e s bytes) = serverStart e s bytes := by
  unfold serverStartT serverStart
  simp only [quiet_bind, withText_quiet]
  rfl

theorem getClientStartT_mute (why : Nat → String) (e : Env) (s : State) :
    (getClientStartT why e s).1 = getClientStart e s := by
  unfold getClientStartT getClientStart
  rw [← clientStartT_quiet]
  cases clientStartT e s with
  | error x => rfl
  | ok m => exact finishRequestT_mute ..

theorem getServerStartT_mute (why : Nat → String) (e : Env) (s : State) (bytes : Option Bytes) :
    (getServerStartT why e s bytes).1 = getServerStart e s bytes := by
  unfold getServerStartT getServerStart
  rw [← serverStartT_quiet]
  cases serverStartT e s bytes with
  | error x => rfl
  | ok m => exact finishRequestT_mute ..

theorem getBytesForS2AT_mute (why : Nat → String) (e : Env) (s : State) (bytes : Option Bytes) :
    (getBytesForS2AT why e s bytes).1 = getBytesForS2A e s bytes := by
  unfold getBytesForS2AT getBytesForS2A
  by_cases h1 : s.first = true
  · rw [if_pos h1, if_pos h1]
    by_cases h2 : (s.isClient && bytes.getD [] != []) = true
    · rw [if_pos h2, if_pos h2]
    · rw [if_neg h2, if_neg h2]
      by_cases h3 : s.isClient = true
      · rw [if_pos h3, if_pos h3, ← getClientStartT_mute why]
      · rw [if_neg h3, if_neg h3, ← getServerStartT_mute why]
  · rw [if_neg h1, if_neg h1]
    by_cases h2 : (bytes.getD [] == []) = true
    · rw [if_pos h2, if_pos h2]
    · rw [if_neg h2, if_neg h2]
      exact finishRequestT_mute ..

theorem handleResultT_mute (s : State) (r : SessionResult) :
    (handleResultT s r).1 = handleResult s r := by
  unfold handleResultT handleResult
  cases r.state with
  | none => rfl
  | some st =>
    simp only
    cases tlsVersionFromProto st.tlsVersion with
    | error c => rfl
    | ok v =>
      simp only
      cases ciphersuiteFromProto st.ciphersuite with
      | error c => rfl
      | ok cs => cases r.localIdentity <;> rfl

theorem getBytesForPeerT_mute (dec : Bytes → Option SessionResp) (s : State)
    (bytes : Option Bytes) : (getBytesForPeerT dec s bytes).1 = getBytesForPeer dec s bytes := by
  unfold getBytesForPeerT getBytesForPeer
  by_cases h1 : (bytes.getD [] == []) = true
  · rw [if_pos h1, if_pos h1]
  rw [if_neg h1, if_neg h1]
  cases dec (bytes.getD []) with
  | none => rfl
  | some resp =>
    simp only
    cases resp.status with
    | none => rfl
    | some status =>
      simp only
      by_cases h2 : status.code ≠ 0
      · rw [if_pos h2, if_pos h2]
      rw [if_neg h2, if_neg h2]
      cases resp.localIdentity <;> cases resp.result with
      | none => rfl
      | some r =>
        simp only
        rw [← handleResultT_mute]
        generalize handleResultT _ r = x
        obtain ⟨⟨a, c⟩, b⟩ := x
        cases c <;> rfl

/-- One call on a proxy: without the texts it is the call of the model. -/
theorem stepT_mute (L : Lib) (why : Nat → String) (xIn xOut : LibText) (s : State) (op : Op) :
    mute (stepT L why xIn xOut s op) = step L s op := by
  cases op with
  | forS2A e bytes =>
    simp only [stepT, step, ← getBytesForS2AT_mute why]
    rfl
  | forPeer dec bytes =>
    simp only [stepT, step, ← getBytesForPeerT_mute]
    rfl
  | isFinished => rfl
  | createFrameProtector fIn fOut =>
    refine bind_mute _ (createFrameProtector L fIn fOut s) _ _ ?_ (fun _ _ => rfl)
    unfold createFrameProtectorT createFrameProtector
    by_cases h1 : (!s.finished) = true
    · rw [if_pos h1, if_pos h1]; rfl
    rw [if_neg h1, if_neg h1]
    cases s.result with
    | none => rfl
    | some r =>
      simp only
      rw [← Frame.createT_quiet L fIn fOut xIn xOut]
      cases Frame.createT L fIn fOut xIn xOut (frameOptions s r) with
      | error u => rfl
      | ok x => cases x <;> rfl
  | getContext =>
    simp only [stepT, step, getS2AContextT, getS2AContext]
    by_cases h1 : (!s.finished) = true
    · rw [if_pos h1, if_pos h1]; rfl
    · rw [if_neg h1, if_neg h1]; rfl

end Proxy
end S2A
