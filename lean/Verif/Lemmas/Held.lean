import Verif.Lemmas.Handshake
import Verif.Lemmas.Heard
import Verif.Spec.Held
namespace S2A.Handler
open HalfConn (exec_bind_eq_ok)
open Spec (maxMessage len24)

/-- Bytes of the message being read. -/
def pending (h : Handler) : Nat := h.fragments.flatten.length

/-- What bounds the memory of a handler. -/
structure Bound (h : Handler) : Prop where
  hdr : h.inData = false → 1 ≤ h.hdrExp ∧ (h.pending + h.hdrExp = 4 ∨ 4 ≤ h.pending) ∧
    h.pending + h.hdrExp ≤ maxMessage + 4
  dat : h.inData = true → h.hdrExp = 4 ∧ 1 ≤ h.dataExp ∧ 4 ≤ h.pending ∧
    h.pending + h.dataExp ≤ maxMessage
  ne : ∀ f ∈ h.fragments, f ≠ []
  full : ∀ ts, h.fullTickets = some ts → ts.length = h.numFull ∧ h.numFull ≤ 5 ∧
    ∀ t ∈ ts, t.flatten.length ≤ maxMessage ∧ ∀ f ∈ t, f ≠ []

theorem Bound.init : Bound init where
  hdr := fun _ => ⟨by decide, by decide, by decide⟩
  dat := fun h => by cases h
  ne := fun f hf => by cases hf
  full := fun ts h => by cases h; exact ⟨rfl, by decide, fun t ht => by cases ht⟩

/-- Position and shift amount of the loop that reads the length in a header. -/
def InStep (at_ : Nat) (sh : Int) : Prop := (at_ = 1 ∧ sh = 16) ∨ (2 ≤ at_ ∧ sh = 32 - 8 * at_)

theorem sizeInner_inStep {f : Bytes} {at_ : Nat} {sh : Int} {acc a s c}
    (hr : InStep at_ sh) (hs : sizeInner f at_ sh acc = .ok (a, s, c)) :
    InStep a s ∧ min 5 (at_ + f.length) ≤ a := by
  induction f generalizing at_ sh acc with
  | nil => cases hs; exact ⟨hr, by simp only [List.length_nil]; omega⟩
  | cons b bs ih =>
    simp only [sizeInner] at hs
    split at hs
    · next h1 =>
      obtain ⟨g1, g2⟩ := ih (at_ := at_ + 1) (sh := sh) (by
        rcases hr with ⟨_, h⟩ | ⟨h, _⟩
        · exact Or.inr ⟨by omega, by omega⟩
        · omega) hs
      exact ⟨g1, by simp only [List.length_cons]; omega⟩
    · next h1 =>
      split at hs
      · cases hs
      · have hr' : InStep (at_ + 1) (sh - 8) := by
          rcases hr with ⟨h, _⟩ | ⟨h, h'⟩
          · exact absurd h h1
          · exact Or.inr ⟨by omega, by omega⟩
        split at hs
        · next h4 =>
          have h4' : at_ + 1 > 4 := h4
          cases hs
          exact ⟨hr', by simp only [List.length_cons]; omega⟩
        · obtain ⟨g1, g2⟩ := ih hr' hs
          exact ⟨g1, by simp only [List.length_cons]; omega⟩

theorem sizeOuter_late {pre : List Bytes} {last : Bytes} {at_ : Nat} {sh : Int} {acc n : Nat}
    (hr : InStep at_ sh) (h5 : 5 ≤ at_ + pre.flatten.length) (hl : last ≠ [])
    (hs : sizeOuter (pre ++ [last]) at_ sh acc = .ok n) : False := by
  induction pre generalizing at_ sh acc with
  | nil =>
    simp only [List.flatten_nil, List.length_nil] at h5
    obtain ⟨b, bs, rfl⟩ : ∃ b bs, last = b :: bs := by
      cases last with
      | nil => exact absurd rfl hl
      | cons b bs => exact ⟨b, bs, rfl⟩
    simp only [List.nil_append, sizeOuter, sizeInner] at hs
    have h1 : ¬ at_ = 1 := by omega
    have h2 : sh < 0 := by rcases hr with ⟨h, _⟩ | ⟨_, h⟩ <;> omega
    rw [if_neg h1, if_pos h2] at hs
    cases hs
  | cons f fs ih =>
    simp only [List.flatten_cons, List.length_append] at h5
    simp only [List.cons_append, sizeOuter, exec_bind_eq_ok] at hs
    obtain ⟨⟨a, s, c⟩, h1, h2⟩ := hs
    obtain ⟨g1, g2⟩ := sizeInner_inStep hr h1
    exact ih g1 (by omega) h2

theorem messageType_ne {h : Handler} {t} (ht : h.messageType = .ok t) : h.fragments ≠ [] := by
  intro h0
  unfold messageType at ht
  rw [h0] at ht
  cases ht

/-- Storing changes nothing but the fragments. -/
theorem store_cases {h h' : Handler} {b : Bytes} (hs : h.store b = .ok h') :
    (h.inData = true ∧ h' = h) ∨ h' = { h with fragments := h.fragments ++ [b] } := by
  unfold store at hs
  simp only at hs
  split at hs
  · next hi =>
    simp only [Bool.and_eq_true] at hi
    simp only [exec_bind_eq_ok] at hs
    obtain ⟨t, _, hs⟩ := hs
    split at hs
    · cases hs; exact Or.inl ⟨hi.2, rfl⟩
    · cases hs; exact Or.inr rfl
  · cases hs; exact Or.inr rfl

theorem pending_snoc (h : Handler) (b : Bytes) :
    ({ h with fragments := h.fragments ++ [b] } : Handler).pending = h.pending + b.length := by
  simp [pending]

theorem ne_snoc {fs : List Bytes} {b : Bytes} (h : ∀ f ∈ fs, f ≠ []) (hb : b ≠ []) :
    ∀ f ∈ fs ++ [b], f ≠ [] := by
  intro f hf
  rcases List.mem_append.1 hf with h1 | h1
  · exact h f h1
  · rw [List.mem_singleton.1 h1]; exact hb

theorem len24_le (a b c : UInt8) : len24 a b c ≤ 2 ^ 24 - 1 := by
  have := a.toNat_lt; have := b.toNat_lt; have := c.toNat_lt
  unfold len24
  omega

/-- Reading a fragment keeps the bound, and a complete message is not too long. -/
theorem Bound.readFragment {h h' : Handler} {rest rest' : Bytes} {full : Bool} (b : Bound h)
    (hne : rest ≠ []) (hr : h.readFragment rest = .ok (h', rest', full)) :
    Bound h' ∧ (full = true → h'.pending ≤ maxMessage ∧ h'.hdrExp = 4 ∧ h'.inData = false) := by
  have hlen : 1 ≤ rest.length := by
    cases rest with
    | nil => exact absurd rfl hne
    | cons x xs => simp
  unfold Handler.readFragment at hr
  by_cases hi : h.inData = false
  · obtain ⟨b1, b2, b3⟩ := b.hdr hi
    rw [if_pos hi] at hr
    split at hr
    · next hle =>
      simp only [exec_bind_eq_ok] at hr
      obtain ⟨h1, hs, sz, hz, hr⟩ := hr
      rcases store_cases hs with ⟨x, _⟩ | rfl
      · rw [hi] at x; cases x
      have htl : (rest.take h.hdrExp).length = h.hdrExp := by rw [List.length_take]; omega
      have htn : rest.take h.hdrExp ≠ [] := by
        intro x; rw [x] at htl; simp only [List.length_nil] at htl; omega
      have hp : h.pending + h.hdrExp = 4 := by
        rcases b2 with b2 | b2
        · exact b2
        · exact (sizeOuter_late (Or.inl ⟨rfl, rfl⟩) (by unfold pending at b2; omega) htn hz).elim
      have hfl : (h.fragments ++ [rest.take h.hdrExp]).flatten.length = 4 := by
        simp only [List.flatten_append, List.length_append, List.flatten_cons, List.flatten_nil,
          List.append_nil, htl]
        exact hp
      have hsz : sz ≤ 2 ^ 24 - 1 := by
        obtain ⟨t, a, b', c, hx⟩ : ∃ t a b' c, (h.fragments ++ [rest.take h.hdrExp]).flatten =
            [t, a, b', c] := by
          match hh : (h.fragments ++ [rest.take h.hdrExp]).flatten, hfl with
          | [t, a, b', c], _ => exact ⟨t, a, b', c, rfl⟩
        have := dataSize_spec
          { h with fragments := h.fragments ++ [rest.take h.hdrExp], hdrExp := kHeaderLen } t a b' c hx
        rw [this] at hz
        cases hz
        exact len24_le a b' c
      cases hr
      refine ⟨⟨?_, ?_, ne_snoc b.ne htn, b.full⟩, fun hx => by cases hx⟩
      · intro hd
        refine ⟨by show 1 ≤ 4; omega, Or.inr ?_, ?_⟩
        · show 4 ≤ (h.fragments ++ [rest.take h.hdrExp]).flatten.length
          omega
        · show (h.fragments ++ [rest.take h.hdrExp]).flatten.length + 4 ≤ _
          rw [hfl]; decide
      · intro hd
        simp only [decide_eq_true_eq] at hd
        refine ⟨rfl, hd, ?_, ?_⟩
        · show 4 ≤ (h.fragments ++ [rest.take h.hdrExp]).flatten.length
          omega
        · show (h.fragments ++ [rest.take h.hdrExp]).flatten.length + sz ≤ _
          rw [hfl]; unfold maxMessage; omega
    · next hlt =>
      simp only [exec_bind_eq_ok] at hr
      obtain ⟨h1, hs, hr⟩ := hr
      rcases store_cases hs with ⟨x, _⟩ | rfl
      · rw [hi] at x; cases x
      cases hr
      have hp := pending_snoc h rest
      refine ⟨⟨?_, ?_, ne_snoc b.ne hne, b.full⟩, fun hx => by cases hx⟩
      · intro _
        have hp' : ({ h with fragments := h.fragments ++ [rest], hdrExp := h.hdrExp - rest.length } :
          Handler).pending = h.pending + rest.length := hp
        refine ⟨?_, ?_, ?_⟩
        · show 1 ≤ h.hdrExp - rest.length
          omega
        · rw [hp']
          show _ + (h.hdrExp - rest.length) = 4 ∨ _
          omega
        · rw [hp']
          show _ + (h.hdrExp - rest.length) ≤ _
          omega
      · intro hx
        have : h.inData = true := hx
        rw [hi] at this; cases this
  · have hi' : h.inData = true := by cases hx : h.inData <;> simp_all
    obtain ⟨b1, b2, b3, b4⟩ := b.dat hi'
    rw [if_neg hi] at hr
    split at hr
    · next hle =>
      simp only [exec_bind_eq_ok] at hr
      obtain ⟨h1, hs, hr⟩ := hr
      cases hr
      have htl : (rest.take h.dataExp).length = h.dataExp := by rw [List.length_take]; omega
      have htn : rest.take h.dataExp ≠ [] := by
        intro x; rw [x] at htl; simp only [List.length_nil] at htl; omega
      have key : 4 ≤ h1.pending ∧ h1.pending ≤ maxMessage ∧ h1.hdrExp = 4 ∧
          (∀ f ∈ h1.fragments, f ≠ []) ∧ h1.fullTickets = h.fullTickets ∧
          h1.numFull = h.numFull := by
        rcases store_cases hs with ⟨_, rfl⟩ | rfl
        · exact ⟨b3, by omega, b1, b.ne, rfl, rfl⟩
        · rw [pending_snoc]
          exact ⟨by omega, by omega, b1, ne_snoc b.ne htn, rfl, rfl⟩
      obtain ⟨k1, k2, k3, k4, k5, k6⟩ := key
      refine ⟨⟨?_, fun hx => (by cases hx), k4, ?_⟩, fun _ => ⟨k2, k3, rfl⟩⟩
      · intro _
        refine ⟨?_, Or.inr k1, ?_⟩
        · show 1 ≤ h1.hdrExp; omega
        · show h1.pending + h1.hdrExp ≤ _; omega
      · intro ts hts
        have hts : h1.fullTickets = some ts := hts
        rw [k5] at hts
        have := b.full ts hts
        rw [← k6] at this
        exact this
    · next hlt =>
      simp only [exec_bind_eq_ok] at hr
      obtain ⟨h1, hs, hr⟩ := hr
      cases hr
      have key : 4 ≤ h1.pending ∧ h1.pending + (h1.dataExp - rest.length) ≤ maxMessage ∧
          h1.hdrExp = 4 ∧ 1 ≤ h1.dataExp - rest.length ∧ h1.inData = true ∧
          (∀ f ∈ h1.fragments, f ≠ []) ∧ h1.fullTickets = h.fullTickets ∧
          h1.numFull = h.numFull := by
        rcases store_cases hs with ⟨_, rfl⟩ | rfl
        · exact ⟨b3, by omega, b1, by omega, hi', b.ne, rfl, rfl⟩
        · rw [pending_snoc]
          refine ⟨by omega, ?_, b1, ?_, hi', ne_snoc b.ne hne, rfl, rfl⟩
          · show _ + (h.dataExp - _) ≤ _; omega
          · show 1 ≤ h.dataExp - _; omega
      obtain ⟨k1, k2, k3, k4, k5, k6, k7, k8⟩ := key
      refine ⟨⟨?_, fun _ => ⟨k3, k4, k1, k2⟩, k6, ?_⟩, fun hx => by cases hx⟩
      · intro hx
        have : h1.inData = false := hx
        rw [k5] at this; cases this
      · intro ts hts
        have hts : h1.fullTickets = some ts := hts
        rw [k7] at hts
        have := b.full ts hts
        rw [← k8] at this
        exact this

/-- Dropping the fragments after a complete message. -/
theorem Bound.clear {h : Handler} (b : Bound h) (hd : h.inData = false) (he : h.hdrExp = 4) :
    Bound { h with fragments := [] } where
  hdr := fun _ => ⟨by show 1 ≤ h.hdrExp; omega, Or.inl (by show 0 + h.hdrExp = 4; omega), by
    show 0 + h.hdrExp ≤ _; omega⟩
  dat := fun hx => by have : h.inData = true := hx; rw [hd] at this; cases this
  ne := fun f hf => by cases hf
  full := b.full

/-- Storing a complete ticket. -/
theorem Bound.addTicket {h h' : Handler} (b : Bound h) (hd : h.inData = false) (he : h.hdrExp = 4)
    (hp : h.pending ≤ maxMessage) (hi : h.ignoreFuture = false) (ha : h.addTicket = .ok h') :
    Bound h' ∧ h'.inData = false ∧ h'.hdrExp = 4 := by
  unfold Handler.addTicket at ha
  split at ha
  · cases ha
  · next ts hts =>
    cases ha
    refine ⟨⟨(b.clear hd he).hdr, (b.clear hd he).dat, fun f hf => (by cases hf), ?_⟩, hd, he⟩
    intro ts' e
    cases e
    obtain ⟨f1, f2, f3⟩ := b.full ts hts
    have h5 : h.numFull < 5 := by
      unfold ignoreFuture at hi
      simp only [Bool.or_eq_false_iff, decide_eq_false_iff_not] at hi
      have : ¬ h.numFull ≥ 5 := hi.2
      omega
    refine ⟨by simp [f1], by show h.numFull + 1 ≤ 5; omega, ?_⟩
    intro t ht
    rcases List.mem_append.1 ht with h1 | h1
    · exact f3 t h1
    · rw [List.mem_singleton.1 h1]
      exact ⟨hp, b.ne⟩

theorem Bound.loop {fuel : Nat} {h h' : Handler} {rest : Bytes} {ku tk : Bool} {res}
    (b : Bound h) (hl : Handler.loop fuel h rest ku tk = .ok (h', res)) : Bound h' := by
  induction fuel generalizing h rest ku tk with
  | zero => cases hl
  | succ fuel ih =>
    rw [Handler.loop] at hl
    split at hl
    · cases hl; exact b
    next hne =>
    have hne : rest ≠ [] := by intro h0; rw [h0] at hne; exact hne rfl
    simp only [exec_bind_eq_ok] at hl
    obtain ⟨⟨h1, rest1, full⟩, hr, t, ht, hl⟩ := hl
    obtain ⟨b1, b2⟩ := b.readFragment hne hr
    simp only at hl
    split at hl
    · split at hl
      · next hf =>
        obtain ⟨g1, g2, g3⟩ := b2 hf
        split at hl
        · cases hl; exact b1
        · cases hl; exact b1.clear g3 g2
      · exact ih b1 hl
    · split at hl
      · split at hl
        · next hf =>
          obtain ⟨g1, g2, g3⟩ := b2 hf
          split at hl
          · exact ih (b1.clear g3 g2) hl
          · next hig =>
            simp only [exec_bind_eq_ok] at hl
            obtain ⟨h2, ha, hl⟩ := hl
            have hig : h1.ignoreFuture = false := by cases hx : h1.ignoreFuture <;> simp_all
            obtain ⟨q1, q2, q3⟩ := b1.addTicket g3 g2 g1 hig ha
            exact ih (q1.clear q2 q3) hl
        · exact ih b1 hl
      · cases hl; exact b1

theorem Bound.getStoredTickets {h h' : Handler} {res} (b : Bound h)
    (hg : h.getStoredTickets = .ok (h', res)) : Bound h' := by
  unfold Handler.getStoredTickets at hg
  split at hg
  · cases hg; exact b
  · have key : ∀ w : Bool, (if w = true then .ok (h, .error .internal) else
        match h.fullTickets with
        | none => .error .assertFail
        | some ts => .ok ({ h with retrieved := true, numFull := 0, fullTickets := none }, .ok ts) :
          Exec (Handler × Except StatusCode (List (List Bytes)))) = .ok (h', res) → Bound h' := by
      intro w hg
      split at hg
      · cases hg; exact b
      · split at hg
        · cases hg
        · cases hg
          exact ⟨b.hdr, b.dat, b.ne, fun ts e => by cases e⟩
    by_cases he : h.expectingMore = true
    · rw [if_pos he] at hg
      simp only [exec_bind_eq_ok] at hg
      obtain ⟨w, _, hg⟩ := hg
      exact key w hg
    · rw [if_neg he] at hg
      exact key false hg

theorem flatten_le {ts : List (List Bytes)} {n : Nat}
    (h : ∀ t ∈ ts, t.flatten.length ≤ n) : ts.flatten.flatten.length ≤ ts.length * n := by
  induction ts with
  | nil => simp
  | cons t ts ih =>
    have h1 := h t (by simp)
    have h2 := ih (fun x hx => h x (by simp [hx]))
    simp only [List.flatten_cons, List.flatten_append, List.length_append, List.length_cons,
      Nat.add_mul]
    omega

/-- Non-empty pieces are at most as many as their bytes. -/
theorem pieces_le {fs : List Bytes} (h : ∀ f ∈ fs, f ≠ []) : fs.length ≤ fs.flatten.length := by
  induction fs with
  | nil => simp
  | cons f fs ih =>
    have h1 := h f (by simp)
    have h2 := ih (fun x hx => h x (by simp [hx]))
    have h3 : 1 ≤ f.length := by
      cases f with
      | nil => exact absurd rfl h1
      | cons => simp
    simp only [List.flatten_cons, List.length_append, List.length_cons]
    omega

end S2A.Handler

namespace S2A.Record
open HalfConn (exec_bind_eq_ok)
open Handler (Bound)
open Spec (heldBytes heldPieces maxMessage)

theorem retrieveAndSend_bound {c c' : Conn} (b : Bound c.handler)
    (h : retrieveAndSend c = .ok c') : Bound c'.handler := by
  unfold retrieveAndSend at h
  simp only [exec_bind_eq_ok] at h
  obtain ⟨⟨h', r⟩, h1, h⟩ := h
  have := b.getStoredTickets h1
  cases r <;> (cases h; exact this)

theorem handleTickets_bound {c c' : Conn} {r} (b : Bound c.handler)
    (h : handleTickets c r = .ok c') : Bound c'.handler := by
  unfold handleTickets at h
  split at h
  · cases h; exact b
  · simp only at h
    have hc : ∀ x : Bool, Bound (if x then { c with phase := .receiving } else c).handler := by
      intro x; cases x <;> exact b
    split at h
    · simp only [exec_bind_eq_ok] at h
      obtain ⟨c1, h1, h2⟩ := h
      have := retrieveAndSend_bound (hc _) h1
      cases h2
      exact this
    · cases h; exact hc _

theorem handleResult_bound {L : Lib} {f : KeyFault} {c c' : Conn} {res st rekey}
    (b : Bound c.handler) (h : handleResult L f c res = .ok (c', st, rekey)) :
    Bound c'.handler := by
  rcases handleResult_cases h with ⟨_, _, rfl, _⟩ | ⟨x, _, ⟨_, _, _, _, _, _, rfl⟩ | ⟨_, h1, _⟩⟩
  · exact b
  · exact b
  · exact handleTickets_bound (c := { c with expecting := x.expecting, inC := _ }) b h1

theorem dispatch_bound {L : Lib} {f : KeyFault} {c c' : Conn} {call pt w r} (b : Bound c.handler)
    (h : dispatch L f c call pt w = .ok (c', r)) : Bound c'.handler := by
  unfold dispatch at h
  simp only [exec_bind_eq_ok] at h
  obtain ⟨x, _, h⟩ := h
  cases x with
  | none => cases h; exact b
  | some nt =>
    obtain ⟨n, t⟩ := nt
    simp only at h
    split at h
    · split at h
      · cases h; exact b
      · split at h
        · cases h
        · split at h <;> (cases h; exact b)
    · split at h
      · simp only [exec_bind_eq_ok] at h
        obtain ⟨⟨h', res⟩, h1, ⟨c1, st, rk⟩, h2, h⟩ := h
        have b1 : Bound h' := Bound.loop b h1
        have b2 : Bound c1.handler := handleResult_bound (c := { c with handler := h' }) b1 h2
        split at h <;> (cases h; exact b2)
      · split at h
        · split at h
          · cases h; exact b
          · split at h
            · simp only [exec_bind_eq_ok] at h
              obtain ⟨c1, h1, h⟩ := h
              have := retrieveAndSend_bound b h1
              cases h; exact this
            · cases h; exact b
        · cases h; exact b

theorem unprotect_bound {L : Lib} {f : Fault} {c c' : Conn} {header payload out r}
    (b : Bound c.handler) (h : unprotect L f c header payload out = .ok (c', r)) :
    Bound c'.handler := by
  unfold unprotect at h
  split at h
  · cases h; exact b
  simp only at h
  split at h
  · cases h; exact b
  split at h
  · cases h; exact b
  split at h
  · cases h; exact b
  simp only [exec_bind_eq_ok] at h
  obtain ⟨⟨inC, call, r1⟩, _, h⟩ := h
  simp only at h
  split at h
  · simp only [exec_bind_eq_ok] at h
    obtain ⟨z, _, h⟩ := h
    cases h; exact b
  · split at h
    · cases h
    · exact dispatch_bound (c := { c with inC := inC }) b h

theorem step_bound {L : Lib} {c op c' ev} (b : Bound c.handler)
    (h : step L c op = .ok (c', ev)) : Bound c'.handler := by
  cases op with
  | protect f rt pt rec =>
    simp only [step, exec_bind_eq_ok] at h
    obtain ⟨⟨c1, r⟩, h1, h2⟩ := h
    cases h2
    have ho := (protect_frame h1).1
    generalize c1.outC = o at ho
    rw [ho]
    exact b
  | updateOutboundKey f =>
    simp only [step, updateOutboundKey, exec_bind_eq_ok] at h
    obtain ⟨⟨c1, r⟩, ⟨⟨o, s⟩, _, h1⟩, h2⟩ := h
    cases h1
    cases h2
    exact b
  | unprotect f hdr pl out =>
    simp only [step, exec_bind_eq_ok] at h
    obtain ⟨⟨c1, r⟩, h1, h2⟩ := h
    cases h2
    exact unprotect_bound b h1

theorem run_bound {L : Lib} {ops c c' evs} (b : Bound c.handler)
    (h : run L c ops = .ok (c', evs)) : Bound c'.handler := by
  induction ops generalizing c evs with
  | nil => cases h; exact b
  | cons op ops ih =>
    simp only [run, exec_bind_eq_ok] at h
    obtain ⟨⟨c1, e⟩, h1, ⟨c2, es⟩, h2, h3⟩ := h
    cases h3
    exact ih (step_bound b h1) h2

theorem created_handler {L : Lib} {a c} (h : Created L a c) : c.handler = .init := by
  obtain ⟨fi, fo, h⟩ := h
  obtain ⟨_, _, _, _, _, _, h1⟩ := create_inv h
  rw [h1]

theorem Bound.held {c : Conn} (b : Bound c.handler) :
    heldBytes c ≤ 6 * maxMessage + 3 ∧ (heldPieces c).length ≤ heldBytes c := by
  have hp : c.handler.fragments.flatten.length ≤ maxMessage + 3 := by
    show c.handler.pending ≤ _
    cases hi : c.handler.inData with
    | false => have := b.hdr hi; omega
    | true => have := b.dat hi; omega
  have ht : ∀ t ∈ c.handler.fullTickets.getD [], t.flatten.length ≤ maxMessage ∧
      ∀ f ∈ t, f ≠ [] := by
    cases hf : c.handler.fullTickets with
    | none => intro t h; cases h
    | some ts => exact (b.full ts hf).2.2
  have hn : (c.handler.fullTickets.getD []).length ≤ 5 := by
    cases hf : c.handler.fullTickets with
    | none => simp
    | some ts => have := b.full ts hf; simp only [Option.getD_some]; omega
  refine ⟨?_, Handler.pieces_le fun f hf => ?_⟩
  · have h1 := Handler.flatten_le (fun t h => (ht t h).1)
    have h2 := Nat.mul_le_mul_right maxMessage hn
    unfold heldBytes heldPieces
    rw [List.flatten_append, List.length_append]
    omega
  · rcases List.mem_append.1 hf with h1 | h1
    · exact b.ne f h1
    · obtain ⟨t, h2, h3⟩ := List.mem_flatten.1 h1
      exact (ht t h2).2 f h3

end S2A.Record
