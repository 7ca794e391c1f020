import Verif.Spec.Alike
/-
What `Protect` does besides making records depends only on the lengths of what it is given.
-/
namespace S2A
open Spec (Both outline)

variable {α β γ δ : Type}

theorem Both.bind {R : α → β → Prop} {S : γ → δ → Prop} {x : Exec α} {y : Exec β}
    {g : α → Exec γ} {h : β → Exec δ} (hx : Both R x y) (hg : ∀ a b, R a b → Both S (g a) (h b)) :
    Both S (x >>= g) (y >>= h) := by
  cases x with
  | error e =>
    cases y with
    | error e' => exact hx
    | ok b => exact hx.elim
  | ok a =>
    cases y with
    | error e' => exact hx.elim
    | ok b => exact hg a b hx

theorem Both.rfl {x : Exec α} : Both Eq x x := by cases x <;> exact Eq.refl _

theorem outline_len {v w : Iovec} (h : outline v = outline w) : v.len = w.len := by
  cases v <;> cases w <;> simp_all [outline, Iovec.len]

theorem outline_buf {a b : Bytes} : outline (.buf a) = outline (.buf b) ↔ a.length = b.length := by
  simp [outline]

theorem totalLen_outline {vs ws : List Iovec} (h : vs.map outline = ws.map outline) :
    totalLen vs = totalLen ws := by
  induction vs generalizing ws with
  | nil => cases ws with
    | nil => rfl
    | cons w ws => cases h
  | cons v vs ih => cases ws with
    | nil => cases h
    | cons w ws =>
      simp only [List.map_cons, List.cons.injEq] at h
      have := ih h.2
      simp only [totalLen, List.map_cons, List.sum_cons] at this ⊢
      rw [outline_len h.1, this]

theorem writeAt_alike {a b w x : Bytes} (off : Nat) (h : a.length = b.length)
    (hw : w.length = x.length) :
    Both (fun a b => a.length = b.length) (writeAt a off w) (writeAt b off x) := by
  unfold writeAt
  rw [h, hw]
  by_cases h1 : off + x.length ≤ b.length
  · rw [if_pos h1, if_pos h1]
    show (List.length _ = List.length _)
    simp only [List.length_append, List.length_take, List.length_drop, h, hw]
  · rw [if_neg h1, if_neg h1]
    exact Eq.refl _

theorem slice_alike {v w : Iovec} (off n : Nat) (h : outline v = outline w) :
    Both (fun v w => outline v = outline w) (v.slice off n) (w.slice off n) := by
  cases v with
  | null m =>
    cases w with
    | buf d => simp [outline] at h
    | null m' =>
      simp [outline] at h
      subst h
      simp only [Iovec.slice]
      by_cases h1 : off + n ≤ m
      · rw [if_pos h1]; exact Eq.refl _
      · rw [if_neg h1]; exact Eq.refl _
  | buf d =>
    cases w with
    | null m => simp [outline] at h
    | buf d' =>
      rw [outline_buf] at h
      simp only [Iovec.slice, h]
      by_cases h1 : off + n ≤ d'.length
      · rw [if_pos h1, if_pos h1]
        show outline _ = outline _
        simp only [outline, List.length_take, List.length_drop, h]
      · rw [if_neg h1, if_neg h1]; exact Eq.refl _

theorem hasBadNull_outline {vs ws : List Iovec} (h : vs.map outline = ws.map outline) :
    Aead.hasBadNull vs = Aead.hasBadNull ws := by
  induction vs generalizing ws with
  | nil => cases ws with
    | nil => rfl
    | cons w ws => cases h
  | cons v vs ih => cases ws with
    | nil => cases h
    | cons w ws =>
      simp only [List.map_cons, List.cons.injEq] at h
      have := ih h.2
      unfold Aead.hasBadNull at this ⊢
      simp only [List.any_cons, this]
      congr 1
      have h1 := h.1
      cases v with
      | null n =>
        cases w with
        | null m =>
          simp [outline] at h1
          rw [h1]
        | buf d => simp [outline] at h1
      | buf d =>
        cases w with
        | null m => simp [outline] at h1
        | buf d' => rfl

theorem flat_length_outline {vs ws : List Iovec} (h : vs.map outline = ws.map outline) :
    (flat vs).length = (flat ws).length := by
  induction vs generalizing ws with
  | nil => cases ws with
    | nil => rfl
    | cons w ws => cases h
  | cons v vs ih => cases ws with
    | nil => cases h
    | cons w ws =>
      simp only [List.map_cons, List.cons.injEq] at h
      have := ih h.2
      simp only [flat, List.flatMap_cons, List.length_append] at this ⊢
      rw [this]
      have h1 := h.1
      congr 1
      cases v <;> cases w <;> simp_all [outline, Iovec.bytes]

namespace Aead

theorem xorKs_length' (s : Nat → UInt8) : ∀ (b : Bytes) (pos : Nat), (xorKs s pos b).length = b.length
  | [], _ => rfl
  | _ :: bs, pos => by simp [xorKs, xorKs_length' s bs (pos + 1)]

/-- Two outcomes of the encryption loop. -/
def LoopAlike : Bytes × Except (StatusCode × String) (Ctx × Nat × Nat) →
    Bytes × Except (StatusCode × String) (Ctx × Nat × Nat) → Prop
  | (o, .ok (c, off, rem)), (o', .ok (c', off', rem')) =>
    o.length = o'.length ∧ c.alg = c'.alg ∧ off = off' ∧ rem = rem'
  | (o, .error e), (o', .error e') => o.length = o'.length ∧ e = e'
  | _, _ => False

theorem encLoopT_alike (L : Lib) (f : EvpFault) (q : String) (vs : List Iovec) :
    ∀ (ws : List Iovec) (k : Nat) (c c' : Ctx) (o o' : Bytes) (off rem : Nat),
      vs.map outline = ws.map outline → c.alg = c'.alg → o.length = o'.length →
      Both LoopAlike (encLoopT L f q k c o off rem vs) (encLoopT L f q k c' o' off rem ws) := by
  induction vs with
  | nil =>
    intro ws k c c' o o' off rem h hc ho
    cases ws with
    | cons w ws => cases h
    | nil => exact ⟨ho, hc, rfl, rfl⟩
  | cons v vs ih =>
    intro ws k c c' o o' off rem h hc ho
    cases ws with
    | nil => cases h
    | cons w ws =>
      simp only [List.map_cons, List.cons.injEq] at h
      unfold encLoopT
      rw [outline_len h.1]
      by_cases h0 : w.len = 0
      · rw [if_pos h0, if_pos h0]; exact ih _ _ _ _ _ _ _ _ h.2 hc ho
      rw [if_neg h0, if_neg h0]
      cases v with
      | null n =>
        cases w with
        | buf d => simp [outline] at h
        | null m => exact ⟨ho, by rw [hc]⟩
      | buf d =>
        cases w with
        | null m => simp [outline] at h
        | buf d' =>
          have hd : d.length = d'.length := outline_buf.1 h.1
          simp only [hd]
          by_cases h1 : rem < d'.length
          · rw [if_pos h1, if_pos h1]; exact ⟨ho, rfl⟩
          rw [if_neg h1, if_neg h1]
          by_cases h2 : intBound ≤ d'.length
          · rw [if_pos h2, if_pos h2]; exact Eq.refl _
          rw [if_neg h2, if_neg h2]
          by_cases h3 : f.update k = true
          · rw [if_pos h3, if_pos h3]; exact ⟨ho, rfl⟩
          rw [if_neg h3, if_neg h3]
          have hl : (c.encUpdate L d).1.length = (c'.encUpdate L d').1.length := by
            simp only [Ctx.encUpdate, xorKs_length', hd]
          refine Both.bind (writeAt_alike off ho hl) fun o1 o1' ho1 => ?_
          simp only [hl]
          refine Both.bind Both.rfl fun r1 r2 hr => ?_
          subst hr
          exact ih _ _ _ _ _ _ _ _ h.2 hc ho1

/-- Two results of an AEAD operation. -/
structure ResultAlike (x y : Result × String) : Prop where
  status : x.1.status = y.1.status
  written : x.1.written = y.1.written
  out : outline x.1.out = outline y.1.out
  text : x.2 = y.2

theorem evpEncryptT_alike (L : Lib) (f : EvpFault) (q : String) (alg : Alg) (key nonce : Bytes)
    (aad : List Iovec) {vs ws : List Iovec} {o o' : Iovec} (h : vs.map outline = ws.map outline)
    (ho : outline o = outline o') :
    Both ResultAlike (evpEncryptT L f q alg key nonce aad vs o)
      (evpEncryptT L f q alg key nonce aad ws o') := by
  cases o with
  | null n =>
    cases o' with
    | buf d => simp [outline] at ho
    | null m => exact Eq.refl _
  | buf ob =>
    cases o' with
    | null m => simp [outline] at ho
    | buf ob' =>
      have hl := outline_buf.1 ho
      simp only [evpEncryptT]
      by_cases h1 : nonce.length ≠ kNonceSize
      · rw [if_pos h1, if_pos h1]; exact ⟨rfl, rfl, ho, rfl⟩
      rw [if_neg h1, if_neg h1]
      by_cases h2 : f.init = true
      · rw [if_pos h2, if_pos h2]; exact ⟨rfl, rfl, ho, rfl⟩
      rw [if_neg h2, if_neg h2]
      refine Both.bind Both.rfl fun x x' hx => ?_
      subst hx
      cases x with
      | error e => exact ⟨rfl, rfl, ho, rfl⟩
      | ok c =>
        simp only [hl]
        refine Both.bind (encLoopT_alike L f q vs ws 0 c c ob ob' 0 ob'.length h rfl hl)
          fun y y' hy => ?_
        obtain ⟨y1, y2⟩ := y
        obtain ⟨y1', y2'⟩ := y'
        cases y2 with
        | error e =>
          cases y2' with
          | ok z => exact hy.elim
          | error e' =>
            obtain ⟨hy1, rfl⟩ := hy
            exact ⟨rfl, rfl, outline_buf.2 hy1, rfl⟩
        | ok z =>
          cases y2' with
          | error e' => exact hy.elim
          | ok z' =>
            obtain ⟨c1, off, rem⟩ := z
            obtain ⟨c1', off', rem'⟩ := z'
            obtain ⟨hy1, hy2, rfl, rfl⟩ := hy
            have hb := outline_buf.2 hy1
            simp only
            by_cases h3 : f.final = true
            · rw [if_pos h3, if_pos h3]; exact ⟨rfl, rfl, hb, rfl⟩
            rw [if_neg h3, if_neg h3]
            by_cases h4 : rem < kTagSize
            · rw [if_pos h4, if_pos h4]; exact ⟨rfl, rfl, hb, rfl⟩
            rw [if_neg h4, if_neg h4]
            by_cases h5 : f.tag = true
            · rw [if_pos h5, if_pos h5]; exact ⟨rfl, rfl, hb, rfl⟩
            rw [if_neg h5, if_neg h5]
            refine Both.bind (writeAt_alike off hy1 (by simp only [Ctx.tag, L.mac_len]))
              fun o1 o1' ho1 => ?_
            refine Both.bind Both.rfl fun r r' hr => ?_
            subst hr
            refine Both.bind Both.rfl fun w w' hw => ?_
            subst hw
            exact ⟨rfl, rfl, outline_buf.2 ho1, rfl⟩

theorem boringEncryptT_alike (L : Lib) (f : EvpFault) (q : String) (alg : Alg) (key nonce : Bytes)
    (aad : List Iovec) {vs ws : List Iovec} {o o' : Iovec} (h : vs.map outline = ws.map outline)
    (ho : outline o = outline o') :
    Both ResultAlike (boringEncryptT L f q alg key nonce aad vs o)
      (boringEncryptT L f q alg key nonce aad ws o') := by
  cases o with
  | null n =>
    cases o' with
    | buf d => simp [outline] at ho
    | null m => exact Eq.refl _
  | buf ob =>
    cases o' with
    | null m => simp [outline] at ho
    | buf ob' =>
      have hl := outline_buf.1 ho
      simp only [boringEncryptT]
      by_cases h1 : nonce.length ≠ kNonceSize
      · rw [if_pos h1, if_pos h1]; exact ⟨rfl, rfl, ho, rfl⟩
      rw [if_neg h1, if_neg h1, hasBadNull_outline h]
      by_cases h2 : hasBadNull ws = true
      · rw [if_pos h2, if_pos h2]; exact ⟨rfl, rfl, ho, rfl⟩
      rw [if_neg h2, if_neg h2, totalLen_outline h, hl]
      by_cases h3 : ob'.length < kTagSize + totalLen ws
      · rw [if_pos h3, if_pos h3]; exact ⟨rfl, rfl, ho, rfl⟩
      rw [if_neg h3, if_neg h3]
      by_cases h4 : hasBadNull aad = true
      · rw [if_pos h4, if_pos h4]; exact ⟨rfl, rfl, ho, rfl⟩
      rw [if_neg h4, if_neg h4]
      by_cases h5 : f.oneShot = true
      · rw [if_pos h5, if_pos h5]; exact ⟨rfl, rfl, rfl, rfl⟩
      rw [if_neg h5, if_neg h5]
      have hfl := flat_length_outline h
      refine Both.bind (writeAt_alike 0 hl (by simp only [List.length_append, xorKs_length', L.mac_len, hfl]))
        fun o1 o1' ho1 => ?_
      simp only [List.length_append, xorKs_length', L.mac_len, hfl]
      refine Both.bind Both.rfl fun r r' hr => ?_
      subst hr
      refine Both.bind Both.rfl fun w w' hw => ?_
      subst hw
      exact ⟨rfl, rfl, outline_buf.2 ho1, rfl⟩

theorem encryptT_alike (L : Lib) (f : EvpFault) (q : String) (a : Crypter) (nonce : Bytes)
    (aad : List Iovec) {vs ws : List Iovec} {o o' : Iovec} (h : vs.map outline = ws.map outline)
    (ho : outline o = outline o') :
    Both ResultAlike (a.encryptT L f q nonce aad vs o) (a.encryptT L f q nonce aad ws o') := by
  unfold Crypter.encryptT
  by_cases h1 : (L.boring && decide (a.alg = .chachaPoly)) = true
  · rw [if_pos h1, if_pos h1]; exact boringEncryptT_alike L f q _ _ _ _ h ho
  · rw [if_neg h1, if_neg h1]; exact evpEncryptT_alike L f q _ _ _ _ h ho

end Aead

namespace HalfConn

theorem encryptT_alike (L : Lib) (f : EvpFault) (q : String) (hc : HalfConn) (aad : List Iovec)
    {vs ws : List Iovec} {o o' : Iovec} (h : vs.map outline = ws.map outline)
    (ho : outline o = outline o') :
    Both (fun x y => x.1.1 = y.1.1 ∧ Aead.ResultAlike (x.1.2.2, x.2) (y.1.2.2, y.2))
      (hc.encryptT L f q aad vs o) (hc.encryptT L f q aad ws o') := by
  unfold encryptT
  by_cases h1 : (hc.alwaysFail || hc.overflowed) = true
  · rw [if_pos h1, if_pos h1]; exact ⟨rfl, rfl, rfl, ho, rfl⟩
  rw [if_neg h1, if_neg h1]
  refine Both.bind Both.rfl fun x x' hx => ?_
  subst hx
  refine Both.bind (Aead.encryptT_alike L f q hc.aead x.1 aad h ho) fun r r' hr => ?_
  exact ⟨rfl, hr⟩

end HalfConn

namespace Record

/-- Two results of a call on the crypter. -/
structure ProtectAlike (x y : (Conn × Result) × Said) : Prop where
  conn : x.1.1 = y.1.1
  code : x.1.2.code = y.1.2.code
  written : x.1.2.written = y.1.2.written
  out : outline x.1.2.out = outline y.1.2.out
  said : x.2 = y.2

theorem protectT_alike (L : Lib) (f : EvpFault) (q : String) (c : Conn) (rt : RecordType)
    {vs ws : List Iovec} {o o' : Iovec} (h : vs.map outline = ws.map outline)
    (ho : outline o = outline o') :
    Both ProtectAlike (protectT L f q c rt vs o) (protectT L f q c rt ws o') := by
  unfold protectT
  simp only [totalLen_outline h, outline_len ho]
  by_cases h1 : totalLen ws > kMaxPlaintext
  · rw [if_pos h1, if_pos h1]; exact ⟨rfl, rfl, rfl, ho, rfl⟩
  rw [if_neg h1, if_neg h1]
  by_cases h2 : o'.len < totalLen ws + c.recordOverhead
  · rw [if_pos h2, if_pos h2]; exact ⟨rfl, rfl, rfl, ho, rfl⟩
  rw [if_neg h2, if_neg h2]
  cases o with
  | null n =>
    cases o' with
    | buf d => simp [outline] at ho
    | null m => exact Eq.refl _
  | buf rb =>
    cases o' with
    | null m => simp [outline] at ho
    | buf rb' =>
      refine Both.bind (writeAt_alike 0 (outline_buf.1 ho) rfl) fun o1 o1' ho1 => ?_
      cases convertRecordType rt with
      | error e => exact ⟨rfl, rfl, rfl, outline_buf.2 ho1, rfl⟩
      | ok t =>
        simp only [ho1]
        refine Both.bind (slice_alike _ _ (outline_buf.2 ho1)) fun s s' hs => ?_
        refine Both.bind (HalfConn.encryptT_alike L f q c.outC _
          (by rw [List.map_append, List.map_append, h]) hs) fun r r' hr => ?_
        obtain ⟨⟨hc, call, r⟩, m⟩ := r
        obtain ⟨⟨hc', call', r'⟩, m'⟩ := r'
        obtain ⟨h3, h4, h5, h6, h7⟩ := hr
        dsimp only at h3 h4 h5 h6 h7 ⊢
        subst h3 h7
        rw [h4]
        by_cases h8 : r'.status ≠ .ok
        · rw [if_pos h8, if_pos h8]
          exact ⟨rfl, rfl, rfl, rfl, rfl⟩
        · rw [if_neg h8, if_neg h8]
          refine ⟨rfl, rfl, by rw [h5], outline_buf.2 ?_, rfl⟩
          rw [List.length_append, List.length_append, List.length_take, List.length_take, ho1]
          congr 1
          generalize r.out = a at h6
          generalize r'.out = b at h6
          cases a <;> cases b <;> simp_all [outline, Iovec.bytes]

end Record

namespace Frame

/-- Two frame protectors that differ only in the records they have made. -/
structure Twin (s t : State) : Prop where
  conn : s.conn = t.conn
  maxRecordSize : s.maxRecordSize = t.maxRecordSize
  next : s.next = t.next
  mem : s.mem = t.mem

theorem Twin.refl (s : State) : Twin s s := ⟨rfl, rfl, rfl, rfl⟩

theorem Twin.destroy {s t : State} (h : Twin s t) (id : BufId) (n : Nat) :
    Twin (s.destroy id n) (t.destroy id n) :=
  ⟨h.conn, h.maxRecordSize, h.next, by simp only [State.destroy, h.mem]⟩

theorem Twin.destroyAll {s t : State} (h : Twin s t) (bs : List (BufId × Bytes)) :
    Twin (s.destroyAll bs) (t.destroyAll bs) := by
  induction bs generalizing s t with
  | nil => exact h
  | cons b bs ih => exact ih (h.destroy _ _)

theorem Twin.alloc {s t : State} (h : Twin s t) (A : Allocator) (n : Nat) :
    Twin (s.alloc A n).1 (t.alloc A n).1 ∧ (s.alloc A n).2 = (t.alloc A n).2 := by
  refine ⟨⟨h.conn, h.maxRecordSize, ?_, ?_⟩, ?_⟩
  · simp only [State.alloc, h.next]
  · simp only [State.alloc, h.mem, h.next]
  · simp only [State.alloc, h.next]

theorem crypterProtectT_alike (L : Lib) (f : EvpFault) (q : String) {s t : State} (hs : Twin s t)
    {vs ws : List Iovec} {o o' : Iovec} (h : vs.map outline = ws.map outline)
    (ho : outline o = outline o') :
    Both (fun x y => Twin x.1.1 y.1.1 ∧ Record.ProtectAlike ((x.1.1.conn, x.1.2), x.2)
      ((y.1.1.conn, y.1.2), y.2)) (s.crypterProtectT L f q vs o) (t.crypterProtectT L f q ws o') := by
  unfold State.crypterProtectT
  rw [hs.conn]
  refine Both.bind (Record.protectT_alike L f q t.conn .applicationData h ho) fun x y hxy => ?_
  obtain ⟨⟨c, r⟩, m⟩ := x
  obtain ⟨⟨c', r'⟩, m'⟩ := y
  exact ⟨⟨hxy.conn, hs.maxRecordSize, hs.next, hs.mem⟩, hxy⟩

theorem crypterUnprotectT_alike (L : Lib) (f : Record.Fault) (q : String) {s t : State}
    (hs : Twin s t) (header : Bytes) (payload : List Iovec) (out : Iovec) :
    Both (fun x y => Twin x.1.1 y.1.1 ∧ x.1.2 = y.1.2 ∧ x.2 = y.2)
      (s.crypterUnprotectT L f q header payload out)
      (t.crypterUnprotectT L f q header payload out) := by
  unfold State.crypterUnprotectT
  rw [hs.conn]
  refine Both.bind Both.rfl fun x y hxy => ?_
  subst hxy
  obtain ⟨⟨c, r⟩, m⟩ := x
  exact ⟨⟨rfl, hs.maxRecordSize, hs.next, hs.mem⟩, rfl, rfl⟩

theorem collect_alike (vs : List Iovec) : ∀ (ws : List Iovec) (on need : Nat),
    vs.map outline = ws.map outline →
    Both (fun x y => x.1.map outline = y.1.map outline ∧ x.2.1.map outline = y.2.1.map outline ∧
      x.2.2 = y.2.2) (collect vs on need) (collect ws on need) := by
  induction vs with
  | nil =>
    intro ws on need h
    cases ws with
    | cons w ws => cases h
    | nil =>
      cases need with
      | zero => exact ⟨rfl, rfl, rfl⟩
      | succ n => exact Eq.refl _
  | cons v vs ih =>
    intro ws on need h
    cases ws with
    | nil => cases h
    | cons w ws =>
      have h' := h
      simp only [List.map_cons, List.cons.injEq] at h'
      cases need with
      | zero =>
        rw [collect, collect]
        exact ⟨rfl, h, rfl⟩
      | succ n =>
        rw [collect, collect, outline_len h'.1]
        refine Both.bind Both.rfl fun a b hab => ?_
        subst hab
        simp only
        refine Both.bind (slice_alike _ _ h'.1) fun p p' hp => ?_
        by_cases h1 : on + min a (n + 1) ≥ w.len
        · rw [if_pos h1, if_pos h1]
          refine Both.bind (ih ws 0 _ h'.2) fun x y hxy => ?_
          refine ⟨?_, hxy.2.1, hxy.2.2⟩
          show outline _ :: List.map outline _ = outline _ :: List.map outline _
          rw [hp, hxy.1]
        · rw [if_neg h1, if_neg h1]
          refine ⟨?_, h, rfl⟩
          show [outline _] = [outline _]
          rw [hp]

theorem bytes_length_outline {v w : Iovec} (h : outline v = outline w) :
    v.bytes.length = w.bytes.length := by
  cases v <;> cases w <;> simp_all [outline, Iovec.bytes]

theorem setBytes_outline {v w : Iovec} {a b : Bytes} (h : outline v = outline w)
    (hl : a.length = b.length) : outline (v.setBytes a) = outline (w.setBytes b) := by
  cases v <;> cases w <;> simp_all [outline, Iovec.setBytes]

/-- Two outcomes of a non-allocating `Protect`. -/
structure IntoAlike (x y : (State × StatusCode × Iovec) × Said) : Prop where
  state : Twin x.1.1 y.1.1
  status : x.1.2.1 = y.1.2.1
  out : outline x.1.2.2 = outline y.1.2.2
  said : x.2 = y.2

theorem protectLoopT_alike (L : Lib) (f : Nat → EvpFault) (errs : Nat → String) (id : BufId) :
    ∀ (fuel i : Nat) (s t : State) (vs ws : List Iovec) (on : Nat) (first : Bool) (rem idx : Nat)
      (out out' : Iovec) (log : List String), Twin s t → vs.map outline = ws.map outline →
      outline out = outline out' →
      Both IntoAlike (protectLoopT L f errs id fuel i s vs on first rem idx out log)
        (protectLoopT L f errs id fuel i t ws on first rem idx out' log) := by
  intro fuel
  induction fuel with
  | zero => intros; exact Eq.refl _
  | succ fuel ih =>
    intro i s t vs ws on first rem idx out out' log hs h ho
    unfold protectLoopT
    by_cases h1 : (first || decide (rem > 0)) = true
    · rw [if_pos h1, if_pos h1]
      simp only
      generalize (if rem < kMaxPlaintext then rem else kMaxPlaintext) = n
      refine Both.bind (collect_alike vs ws on n h) fun x y hxy => ?_
      obtain ⟨ps, vs', on'⟩ := x
      obtain ⟨ps', ws', on''⟩ := y
      obtain ⟨h2, h3, rfl⟩ := hxy
      dsimp only at h2 h3 ⊢
      rw [outline_len ho]
      refine Both.bind Both.rfl fun room room' hr => ?_
      subst hr
      refine Both.bind (slice_alike idx room ho) fun slot slot' hslot => ?_
      refine Both.bind (crypterProtectT_alike L (f i) (errs i) hs h2 hslot) fun x y hxy => ?_
      obtain ⟨⟨s1, r⟩, m⟩ := x
      obtain ⟨⟨t1, r'⟩, m'⟩ := y
      obtain ⟨hs1, hc, h4, h5, h6, h7⟩ := hxy
      dsimp only at hs1 hc h4 h5 h6 h7 ⊢
      subst h7
      have ho1 : outline (out.setBytes (out.bytes.take idx ++ r.out.bytes)) =
          outline (out'.setBytes (out'.bytes.take idx ++ r'.out.bytes)) := by
        refine setBytes_outline ho ?_
        simp only [List.length_append, List.length_take, bytes_length_outline ho,
          bytes_length_outline h6]
      rw [h4, h5, hc, outline_len ho1]
      by_cases h8 : r'.code ≠ .ok
      · rw [if_pos h8, if_pos h8]
        exact ⟨hs1.destroy _ _, rfl, ho1, rfl⟩
      rw [if_neg h8, if_neg h8]
      by_cases h9 : r'.written ≠ n + t1.conn.recordOverhead
      · rw [if_pos h9, if_pos h9]
        exact ⟨hs1.destroy _ _, rfl, ho1, rfl⟩
      rw [if_neg h9, if_neg h9]
      exact ih _ _ _ _ _ _ _ _ _ _ _ _ hs1 h3 ho1
    · rw [if_neg h1, if_neg h1]
      exact ⟨hs, rfl, ho, rfl⟩

theorem protectIntoT_alike (L : Lib) (f : Nat → EvpFault) (errs : Nat → String) {s t : State}
    (hs : Twin s t) (id : BufId) {vs ws : List Iovec} {out out' : Iovec}
    (h : vs.map outline = ws.map outline) (ho : outline out = outline out') :
    Both IntoAlike (protectIntoT L f errs s id vs out) (protectIntoT L f errs t id ws out') := by
  unfold protectIntoT
  simp only [totalLen_outline h]
  exact protectLoopT_alike L f errs id _ _ _ _ _ _ _ _ _ _ _ _ _ hs h ho

theorem protectT_alike (L : Lib) (A : Allocator) (f : Nat → EvpFault) (errs : Nat → String)
    {s t : State} (hs : Twin s t) {vs ws : List Iovec} (h : vs.map outline = ws.map outline) :
    Both (fun x y => Twin x.1.1 y.1.1 ∧ x.1.2.status = y.1.2.status ∧
      x.1.2.bytes.map (fun b => (b.1, b.2.length)) = y.1.2.bytes.map (fun b => (b.1, b.2.length)) ∧
      x.2 = y.2) (protectT L A f errs s vs) (protectT L A f errs t ws) := by
  unfold protectT
  have hn : numberBytesToProtect s (totalLen vs) = numberBytesToProtect t (totalLen ws) := by
    simp only [numberBytesToProtect, totalLen_outline h, hs.conn, hs.maxRecordSize]
  rw [hn]
  obtain ⟨hs1, h1⟩ := hs.alloc A (numberBytesToProtect t (totalLen ws))
  generalize s.alloc A (numberBytesToProtect t (totalLen ws)) = a at hs1 h1
  generalize t.alloc A (numberBytesToProtect t (totalLen ws)) = b at hs1 h1
  obtain ⟨s1, id, buf⟩ := a
  obtain ⟨t1, id', buf'⟩ := b
  cases h1
  dsimp only at hs1 ⊢
  refine Both.bind (protectIntoT_alike L f errs hs1 id h rfl) fun x y hxy => ?_
  obtain ⟨⟨s2, st, out⟩, m⟩ := x
  obtain ⟨⟨t2, st', out'⟩, m'⟩ := y
  obtain ⟨hs2, h2, h3, h4⟩ := hxy
  dsimp only at hs2 h2 h3 h4 ⊢
  subst h2 h4
  by_cases h5 : st ≠ .ok
  · rw [if_pos h5, if_pos h5, outline_len h3]
    exact ⟨hs2.destroy _ _, rfl, rfl, rfl⟩
  · rw [if_neg h5, if_neg h5]
    refine ⟨hs2, rfl, ?_, rfl⟩
    simp only [List.map_cons, List.map_nil, bytes_length_outline h3]

theorem unprotectIntoT_alike (L : Lib) (f : Record.Fault) (q : String) {s t : State}
    (hs : Twin s t) (vs : List Iovec) (out : Iovec) :
    Both (fun x y => Twin x.1.1 y.1.1 ∧ x.1.2 = y.1.2 ∧ x.2 = y.2)
      (unprotectIntoT L f q s vs out) (unprotectIntoT L f q t vs out) := by
  unfold unprotectIntoT
  have hn : numberBytesToUnprotect s (totalLen vs) = numberBytesToUnprotect t (totalLen vs) := by
    simp only [numberBytesToUnprotect, hs.conn]
  rw [hn]
  by_cases h1 : numberBytesToUnprotect t (totalLen vs) = 0
  · rw [if_pos h1, if_pos h1]; exact ⟨hs, rfl, rfl⟩
  rw [if_neg h1, if_neg h1]
  refine Both.bind Both.rfl fun x y hxy => ?_
  subst hxy
  cases x with
  | error e => exact ⟨hs, rfl, rfl⟩
  | ok x =>
    obtain ⟨header, vs1, on⟩ := x
    refine Both.bind Both.rfl fun x y hxy => ?_
    subst hxy
    cases x with
    | error e => exact ⟨hs, rfl, rfl⟩
    | ok x =>
      obtain ⟨payload, vs2, on2⟩ := x
      refine Both.bind (crypterUnprotectT_alike L f q hs header payload out) fun x y hxy => ?_
      obtain ⟨⟨s1, r⟩, m⟩ := x
      obtain ⟨⟨t1, r'⟩, m'⟩ := y
      obtain ⟨hs1, h2, h3⟩ := hxy
      dsimp only at hs1 h2 h3 ⊢
      subst h2 h3
      by_cases h4 : r.code ≠ .ok
      · rw [if_pos h4, if_pos h4]; exact ⟨hs1, rfl, rfl⟩
      · rw [if_neg h4, if_neg h4]; exact ⟨hs1, rfl, rfl⟩

theorem unprotectLoopT_alike (L : Lib) (A : Allocator) (f : Nat → Record.Fault)
    (errs : Nat → String) : ∀ (fuel i : Nat) (s t : State) (vs : List Iovec) (on rem : Nat)
      (done : List (BufId × Bytes)) (log : List String), Twin s t →
      Both (fun x y => Twin x.1.1 y.1.1 ∧ x.1.2 = y.1.2 ∧ x.2 = y.2)
        (unprotectLoopT L A f errs fuel i s vs on rem done log)
        (unprotectLoopT L A f errs fuel i t vs on rem done log) := by
  intro fuel
  induction fuel with
  | zero => intros; exact Eq.refl _
  | succ fuel ih =>
    intro i s t vs on rem done log hs
    unfold unprotectLoopT
    rw [hs.conn]
    by_cases h1 : rem ≥ t.conn.recordOverhead
    · rw [if_pos h1, if_pos h1]
      refine Both.bind Both.rfl fun x y hxy => ?_
      subst hxy
      cases x with
      | error e => exact ⟨hs, rfl, rfl⟩
      | ok x =>
        obtain ⟨header, vs1, on1⟩ := x
        dsimp only
        refine Both.bind Both.rfl fun x y hxy => ?_
        subst hxy
        cases x with
        | error e => exact ⟨hs, rfl, rfl⟩
        | ok x =>
          obtain ⟨payload, vs2, on2⟩ := x
          dsimp only
          obtain ⟨hs1, ha⟩ := hs.alloc A (payloadSize header)
          generalize s.alloc A (payloadSize header) = a at hs1 ha
          generalize t.alloc A (payloadSize header) = b at hs1 ha
          obtain ⟨s1, id, buf⟩ := a
          obtain ⟨t1, id', buf'⟩ := b
          cases ha
          dsimp only at hs1 ⊢
          refine Both.bind (crypterUnprotectT_alike L (f i) (errs i) hs1 header payload buf)
            fun x y hxy => ?_
          obtain ⟨⟨s2, r⟩, m⟩ := x
          obtain ⟨⟨t2, r'⟩, m'⟩ := y
          obtain ⟨hs2, h2, h3⟩ := hxy
          dsimp only at hs2 h2 h3 ⊢
          subst h2 h3
          by_cases h4 : r.code ≠ .ok
          · rw [if_pos h4, if_pos h4]
            exact ⟨(hs2.destroy _ _).destroyAll _, rfl, rfl⟩
          · rw [if_neg h4, if_neg h4]
            refine Both.bind Both.rfl fun x y hxy => ?_
            subst hxy
            exact ih _ _ _ _ _ _ _ _ hs2
    · rw [if_neg h1, if_neg h1]; exact ⟨hs, rfl, rfl⟩

theorem unprotectT_alike (L : Lib) (A : Allocator) (f : Nat → Record.Fault) (errs : Nat → String)
    {s t : State} (hs : Twin s t) (vs : List Iovec) :
    Both (fun x y => Twin x.1.1 y.1.1 ∧ x.1.2 = y.1.2 ∧ x.2 = y.2)
      (unprotectT L A f errs s vs) (unprotectT L A f errs t vs) := by
  unfold unprotectT
  simp only [hs.conn]
  by_cases h1 : totalLen vs < t.conn.recordOverhead
  · rw [if_pos h1, if_pos h1]; exact ⟨hs, rfl, rfl⟩
  · rw [if_neg h1, if_neg h1]; exact unprotectLoopT_alike L A f errs _ _ _ _ _ _ _ _ _ hs

/-- Two calls that may differ in the bytes given to `Protect`. -/
def OpAlike : Op → Op → Prop
  | .protect f vs, .protect f' ws => f = f' ∧ vs.map outline = ws.map outline
  | .protectInto f vs o, .protectInto f' ws o' =>
    f = f' ∧ vs.map outline = ws.map outline ∧ outline o = outline o'
  | .unprotect f vs, .unprotect f' ws => f = f' ∧ vs = ws
  | .unprotectInto f vs o, .unprotectInto f' ws o' => f = f' ∧ vs = ws ∧ o = o'
  | _, _ => False

theorem opAlike {op op' : Op} (h : Spec.SameButData op op') : OpAlike op op' := by
  cases h with
  | same =>
    cases op with
    | protect => exact ⟨rfl, rfl⟩
    | protectInto => exact ⟨rfl, rfl, rfl⟩
    | unprotect => exact ⟨rfl, rfl⟩
    | unprotectInto => exact ⟨rfl, rfl, rfl⟩
  | protect f h => exact ⟨rfl, h⟩
  | protectInto f h ho => exact ⟨rfl, h, ho⟩

theorem stepT_alike (L : Lib) (A : Allocator) (errs : Nat → String) {s t : State} (hs : Twin s t)
    {op op' : Op} (h : Spec.SameButData op op') :
    Both (fun x y => Twin x.1.1 y.1.1 ∧ Spec.SameButRecords op x.1.2 y.1.2 ∧ x.2 = y.2)
      (stepT L A errs s op) (stepT L A errs t op') := by
  have hq := opAlike h
  clear h
  cases op <;> cases op' <;> try exact hq.elim
  · obtain ⟨rfl, h⟩ := hq
    refine Both.bind (protectT_alike L A _ errs hs h) fun x y hxy => ?_
    exact ⟨hxy.1, .protect hxy.2.1 hxy.2.2.1, hxy.2.2.2⟩
  · obtain ⟨rfl, h, ho⟩ := hq
    refine Both.bind (protectIntoT_alike L _ errs hs .caller h ho) fun x y hxy => ?_
    obtain ⟨⟨s1, st, o⟩, m⟩ := x
    obtain ⟨⟨t1, st', o'⟩, m'⟩ := y
    obtain ⟨h1, h2, h3, h4⟩ := hxy
    dsimp only at h1 h2 h3 h4 ⊢
    subst h2 h4
    refine ⟨h1, ?_, rfl⟩
    show Spec.SameButRecords _ (Event.status st o.len o) (Event.status st o'.len o')
    rw [outline_len h3]
    exact .protectInto _ _ h3
  · obtain ⟨rfl, rfl⟩ := hq
    refine Both.bind (unprotectT_alike L A _ errs hs _) fun x y hxy => ?_
    obtain ⟨⟨s1, r⟩, m⟩ := x
    obtain ⟨⟨t1, r'⟩, m'⟩ := y
    obtain ⟨h1, h2, h3⟩ := hxy
    dsimp only at h1 h2 h3 ⊢
    subst h2 h3
    exact ⟨h1, .unprotect _, rfl⟩
  · obtain ⟨rfl, rfl, rfl⟩ := hq
    refine Both.bind (unprotectIntoT_alike L _ (errs 0) hs _ _) fun x y hxy => ?_
    obtain ⟨⟨s1, r⟩, m⟩ := x
    obtain ⟨⟨t1, r'⟩, m'⟩ := y
    obtain ⟨h1, h2, h3⟩ := hxy
    dsimp only at h1 h2 h3 ⊢
    subst h2 h3
    exact ⟨h1, .unprotectInto _, rfl⟩

theorem runT_alike (L : Lib) (A : Allocator) {ops ops' : List (Op × (Nat → String))}
    (h : Spec.AllSameButData ops ops') : ∀ {s t : State}, Twin s t →
    Both (fun x y => Twin x.1 y.1 ∧ Spec.AllSameButRecords ops x.2 y.2)
      (runT L A s ops) (runT L A t ops') := by
  induction h with
  | nil => intro s t hs; exact ⟨hs, .nil⟩
  | cons errs h1 h2 ih =>
    intro s t hs
    unfold runT
    refine Both.bind (stepT_alike L A errs hs h1) fun x y hxy => ?_
    obtain ⟨⟨s1, e⟩, m⟩ := x
    obtain ⟨⟨t1, e'⟩, m'⟩ := y
    obtain ⟨h3, h4, h5⟩ := hxy
    dsimp only at h3 h4 h5 ⊢
    subst h5
    refine Both.bind (ih h3) fun x y hxy => ?_
    exact ⟨hxy.1, .cons _ h4 hxy.2⟩

end Frame
end S2A
