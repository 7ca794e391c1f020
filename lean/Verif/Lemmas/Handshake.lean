import Verif.Model.Handshake
import Verif.Spec.Handshake
import Verif.Lemmas.Base
namespace S2A.Handler
open Spec

theorem sizeInner_append (f g : Bytes) (at_ : Nat) (sh : Int) (acc : Nat)
    (h : at_ + (f ++ g).length ≤ 5) :
    sizeInner (f ++ g) at_ sh acc =
      (sizeInner f at_ sh acc >>= fun x => sizeInner g x.1 x.2.1 x.2.2) := by
  induction f generalizing at_ sh acc with
  | nil => simp [sizeInner]
  | cons b bs ih =>
    simp only [List.cons_append, List.length_cons] at h
    simp only [List.cons_append, sizeInner]
    split
    · exact ih _ _ _ (by omega)
    · split
      · simp
      · split
        · next h4 =>
          have h4' : at_ + 1 > 4 := h4
          have h0 : bs ++ g = [] := by
            apply List.length_eq_zero_iff.1
            omega
          have hg : g = [] := (List.append_eq_nil_iff.1 h0).2
          subst hg
          simp [sizeInner]
        · exact ih _ _ _ (by omega)

theorem sizeOuter_flatten (fs : List Bytes) (at_ : Nat) (sh : Int) (acc : Nat)
    (h : at_ + fs.flatten.length ≤ 5) :
    sizeOuter fs at_ sh acc = (sizeInner fs.flatten at_ sh acc >>= fun x => .ok x.2.2) := by
  induction fs generalizing at_ sh acc with
  | nil => simp [sizeOuter, sizeInner]
  | cons f fs ih =>
    simp only [List.flatten_cons] at h ⊢
    rw [sizeInner_append _ _ _ _ _ h]
    simp only [sizeOuter]
    cases hs : sizeInner f at_ sh acc with
    | error e => simp
    | ok x =>
      obtain ⟨a, s, c⟩ := x
      simp only [exec_bind_ok]
      refine ih _ _ _ ?_
      have : a = at_ + f.length := by
        clear ih
        simp only [List.length_append] at h
        induction f generalizing at_ sh acc with
        | nil => simp [sizeInner] at hs; simp [hs.1]
        | cons b bs ih =>
          simp only [sizeInner] at hs
          simp only [List.length_cons] at h
          split at hs
          · have := ih _ _ _ hs (by omega); simp; omega
          · split at hs
            · cases hs
            · split at hs
              · next h4 =>
                have h4' : at_ + 1 > 4 := h4
                cases hs
                simp only [List.length_cons]; omega
              · have := ih _ _ _ hs (by omega); simp; omega
      simp only [List.length_append] at h
      omega

theorem or_bytes (a b c : UInt8) :
    ((0 ||| a.toNat <<< 16) ||| b.toNat <<< 8) ||| c.toNat <<< 0 = len24 a b c := by
  have hb := b.toNat_lt
  have hc := c.toNat_lt
  rw [Nat.zero_or, Nat.or_assoc]
  have e1 : b.toNat <<< 8 ||| c.toNat <<< 0 = b.toNat <<< 8 + c.toNat := by
    rw [Nat.shiftLeft_zero, Nat.shiftLeft_add_eq_or_of_lt (by omega)]
  have e2 : b.toNat <<< 8 + c.toNat = b.toNat * 256 + c.toNat := by
    rw [Nat.shiftLeft_eq]
  rw [e1, e2, ← Nat.shiftLeft_add_eq_or_of_lt (by omega), Nat.shiftLeft_eq]
  unfold len24
  omega

theorem dataSize_spec (h : Handler) (t a b c : UInt8) (hf : h.fragments.flatten = [t, a, b, c]) :
    h.dataSizeFromHeader = .ok (len24 a b c) := by
  unfold dataSizeFromHeader
  rw [sizeOuter_flatten _ _ _ _ (by simp [hf]), hf]
  rw [← or_bytes]
  rfl

theorem messageType_of (h : Handler) (t : UInt8) (rest : Bytes)
    (hne : ∀ f ∈ h.fragments, f ≠ []) (hf : h.fragments.flatten = t :: rest) :
    h.messageType = .ok t := by
  unfold messageType
  cases hfr : h.fragments with
  | nil => rw [hfr] at hf; simp at hf
  | cons f fs =>
    cases f with
    | nil => exact absurd rfl (hne [] (by simp [hfr]))
    | cons x xs =>
      rw [hfr] at hf
      simp at hf
      simp [hf.1]

/-- The 24-bit length of a pending message. -/
def bodyLen : Bytes → Nat
  | _ :: a :: b :: c :: _ => len24 a b c
  | _ => 0

/-- The handler has read the bytes `p` of an incomplete message. -/
structure Rel (h : Handler) (p : Bytes) : Prop where
  ne : ∀ f ∈ h.fragments, f ≠ []
  hdr : p.length < 4 → h.inData = false ∧ h.hdrExp = 4 - p.length ∧ h.fragments.flatten = p
  dat : 4 ≤ p.length → h.inData = true ∧ h.hdrExp = 4 ∧ 0 < h.dataExp ∧
    h.dataExp + p.length = 4 + bodyLen p ∧
    h.fragments.flatten =
      if h.ignoreFuture = true ∧ p.head? = some kTicketType then p.take 4 else p
  cut : 4 ≤ p.length → ∃ pre post, h.fragments = pre ++ post ∧ pre.flatten.length = 4

/-- Bookkeeping of the ticket store. -/
def TInv (h : Handler) : Prop :=
  (h.retrieved = true ∧ h.fullTickets = none ∧ h.numFull = 0) ∨
  (h.retrieved = false ∧ ∃ ts, h.fullTickets = some ts ∧ h.numFull = ts.length ∧ ts.length ≤ 5)

/-- The tickets in the store (none after retrieval). -/
def stored (h : Handler) : List Bytes :=
  match h.fullTickets with
  | none => []
  | some ts => ts.map List.flatten

theorem init_rel : Rel init [] :=
  ⟨by simp [init], by simp [init], by simp, by simp⟩
theorem init_tinv : TInv init := Or.inr ⟨rfl, [], rfl, rfl, by simp⟩

theorem Rel.type {h : Handler} {t : UInt8} {p : Bytes} (r : Rel h (t :: p)) :
    h.messageType = .ok t := by
  by_cases hl : (t :: p).length < 4
  · exact messageType_of h t p r.ne (r.hdr hl).2.2
  · obtain ⟨_, _, _, _, hf⟩ := r.dat (by omega)
    split at hf
    · exact messageType_of h t (p.take 3) r.ne (by simpa using hf)
    · exact messageType_of h t p r.ne hf

theorem Rel.expecting {h : Handler} {p : Bytes} (r : Rel h p) :
    h.expectingMore = !p.isEmpty := by
  cases p with
  | nil =>
    obtain ⟨_, _, hf⟩ := r.hdr (by simp)
    unfold expectingMore
    cases hfr : h.fragments with
    | nil => rfl
    | cons f fs =>
      rw [hfr] at hf
      simp at hf
      exact absurd hf.1 (r.ne f (by simp [hfr]))
  | cons t p =>
    have := r.type
    unfold messageType at this
    unfold expectingMore
    cases hfr : h.fragments with
    | nil => rw [hfr] at this; cases this
    | cons => rfl

/-! ### Reading fragments -/

theorem store_hdr {h : Handler} (hi : h.inData = false) (b : Bytes) :
    h.store b = .ok { h with fragments := h.fragments ++ [b] } := by
  simp [store, hi]

/-- The rest of a header is not complete. -/
theorem read_hdr_part {h : Handler} {p rest : Bytes} (r : Rel h p) (hr : rest ≠ [])
    (hl : (p ++ rest).length < 4) :
    ∃ h', h.readFragment rest = .ok (h', [], false) ∧ Rel h' (p ++ rest) ∧
      h'.fullTickets = h.fullTickets ∧ h'.numFull = h.numFull ∧ h'.retrieved = h.retrieved := by
  simp only [List.length_append] at hl
  obtain ⟨h1, h2, h3⟩ := r.hdr (by omega)
  unfold readFragment
  rw [if_pos h1, if_neg (by omega), store_hdr h1]
  refine ⟨_, rfl, ⟨?_, ?_, ?_, ?_⟩, rfl, rfl, rfl⟩
  · intro f hf
    rcases List.mem_append.1 hf with hf | hf
    · exact r.ne f hf
    · simp at hf; subst hf; exact hr
  · intro _
    refine ⟨h1, ?_, by simp [h3]⟩
    simp [h2]; omega
  · intro h4; simp at h4; omega
  · intro h4; simp at h4; omega

/-- The header gets complete. -/
theorem read_hdr_full {h : Handler} {p rest : Bytes} {t a b c : UInt8} {rest' : Bytes}
    (r : Rel h p) (hp : p.length < 4) (he : p ++ rest = t :: a :: b :: c :: rest')
    (hz : 0 < len24 a b c) :
    ∃ h', h.readFragment rest = .ok (h', rest', false) ∧ Rel h' [t, a, b, c] ∧
      h'.fullTickets = h.fullTickets ∧ h'.numFull = h.numFull ∧ h'.retrieved = h.retrieved := by
  obtain ⟨h1, h2, h3⟩ := r.hdr hp
  have hlen : (p ++ rest).length = rest'.length + 4 := by rw [he]; simp
  simp only [List.length_append] at hlen
  have htake : p ++ rest.take (4 - p.length) = [t, a, b, c] := by
    have : (p ++ rest).take 4 = [t, a, b, c] := by rw [he]; simp
    rwa [List.take_append, List.take_of_length_le (by omega)] at this
  have hdrop : rest.drop (4 - p.length) = rest' := by
    have : (p ++ rest).drop 4 = rest' := by rw [he]; simp
    rwa [List.drop_append, List.drop_of_length_le (by omega), List.nil_append] at this
  unfold readFragment
  rw [if_pos h1, if_pos (by omega)]
  simp only [store_hdr h1, h2, exec_bind_ok]
  rw [dataSize_spec _ t a b c (by simp [h3, htake])]
  simp only [exec_bind_ok, exec_pure, hdrop]
  have hne : ∀ f ∈ h.fragments ++ [rest.take (4 - p.length)], f ≠ [] := by
    intro f hf
    rcases List.mem_append.1 hf with hf | hf
    · exact r.ne f hf
    · simp at hf
      subst hf
      intro h0
      rw [h0] at htake
      simp at htake
      rw [htake] at hp
      simp at hp
  refine ⟨_, rfl, ⟨hne, ?_, ?_, fun _ => ⟨_, [], (List.append_nil _).symm, by
    simp [h3, htake]⟩⟩, rfl, rfl, rfl⟩
  · intro h4; simp at h4
  · intro _
    refine ⟨by simpa using hz, rfl, hz, by simp [bodyLen]; omega, ?_⟩
    have hfl : (h.fragments ++ [rest.take (4 - p.length)]).flatten = [t, a, b, c] := by
      simp [h3, htake]
    rw [hfl]
    split <;> simp

/-- A header announcing an empty body: the handler does not notice that the message is
complete. -/
theorem read_hdr_zero {h : Handler} {p rest : Bytes} {t a b c : UInt8} {rest' : Bytes}
    (r : Rel h p) (hp : p.length < 4) (he : p ++ rest = t :: a :: b :: c :: rest')
    (hz : len24 a b c = 0) :
    ∃ h', h.readFragment rest = .ok (h', rest', false) ∧ h'.messageType = .ok t ∧
      h'.fullTickets = h.fullTickets ∧ h'.numFull = h.numFull ∧ h'.retrieved = h.retrieved ∧
      h'.inData = false ∧ h'.hdrExp = 4 ∧ (∀ f ∈ h'.fragments, f ≠ []) ∧
      h'.fragments.flatten.length = 4 := by
  obtain ⟨h1, h2, h3⟩ := r.hdr hp
  have hlen : (p ++ rest).length = rest'.length + 4 := by rw [he]; simp
  simp only [List.length_append] at hlen
  have htake : p ++ rest.take (4 - p.length) = [t, a, b, c] := by
    have : (p ++ rest).take 4 = [t, a, b, c] := by rw [he]; simp
    rwa [List.take_append, List.take_of_length_le (by omega)] at this
  have hdrop : rest.drop (4 - p.length) = rest' := by
    have : (p ++ rest).drop 4 = rest' := by rw [he]; simp
    rwa [List.drop_append, List.drop_of_length_le (by omega), List.nil_append] at this
  unfold readFragment
  rw [if_pos h1, if_pos (by omega)]
  simp only [store_hdr h1, h2, exec_bind_ok]
  rw [dataSize_spec _ t a b c (by simp [h3, htake])]
  simp only [exec_bind_ok, exec_pure, hdrop]
  have hne : ∀ f ∈ h.fragments ++ [rest.take (4 - p.length)], f ≠ [] := by
    intro f hf
    rcases List.mem_append.1 hf with hf | hf
    · exact r.ne f hf
    · simp at hf
      subst hf
      intro h0
      rw [h0] at htake
      simp at htake
      rw [htake] at hp
      simp at hp
  exact ⟨_, rfl, messageType_of _ t [a, b, c] hne (by simp [h3, htake]), rfl, rfl, rfl,
    by simp [hz], rfl, hne, by simp [h3, htake]⟩

theorem store_dat {h : Handler} {t : UInt8} {p : Bytes} (r : Rel h (t :: p))
    (h4 : 4 ≤ (t :: p).length) (b : Bytes) :
    ∃ h', h.store b = .ok h' ∧
      h' = (if h.ignoreFuture = true ∧ t = kTicketType then h
            else { h with fragments := h.fragments ++ [b] }) := by
  obtain ⟨h1, _⟩ := r.dat h4
  unfold store
  rw [h1, r.type]
  by_cases hi : h.ignoreFuture = true
  · by_cases ht : t = kTicketType
    · simp [hi, ht]
    · simp [hi, ht]
  · simp [hi]

theorem take4_append {p q : Bytes} (h : 4 ≤ p.length) : (p ++ q).take 4 = p.take 4 := by
  rw [List.take_append, show 4 - p.length = 0 by omega]; simp

theorem bodyLen_append {p q : Bytes} (h : 4 ≤ p.length) : bodyLen (p ++ q) = bodyLen p := by
  match p, h with
  | _ :: _ :: _ :: _ :: _, _ => rfl

/-- More body bytes, not all. -/
theorem read_dat_part {h : Handler} {p rest : Bytes} (r : Rel h p) (h4 : 4 ≤ p.length)
    (hr : rest ≠ []) (hl : (p ++ rest).length < 4 + bodyLen p) :
    ∃ h', h.readFragment rest = .ok (h', [], false) ∧ Rel h' (p ++ rest) ∧
      h'.fullTickets = h.fullTickets ∧ h'.numFull = h.numFull ∧ h'.retrieved = h.retrieved := by
  simp only [List.length_append] at hl
  obtain ⟨h1, h2, h3, h5, h6⟩ := r.dat h4
  match p, h4 with
  | t :: p, h4 =>
    obtain ⟨h', s1, s2⟩ := store_dat r h4 rest
    unfold readFragment
    rw [if_neg (by simp [h1]), if_neg (by omega), s1]
    simp only [exec_bind_ok, exec_pure]
    have hfields : h'.fullTickets = h.fullTickets ∧ h'.numFull = h.numFull ∧
        h'.retrieved = h.retrieved ∧ h'.inData = h.inData ∧ h'.hdrExp = h.hdrExp ∧
        h'.dataExp = h.dataExp := by
      rw [s2]; split <;> simp
    obtain ⟨f1, f2, f3, f4, f5, f6⟩ := hfields
    have hcut : ∃ pre post, h'.fragments = pre ++ post ∧ pre.flatten.length = 4 := by
      obtain ⟨pre, post, c1, c2⟩ := r.cut h4
      rw [s2]
      split
      · exact ⟨pre, post, c1, c2⟩
      · exact ⟨pre, post ++ [rest], by simp [c1], c2⟩
    refine ⟨_, rfl, ⟨?_, ?_, ?_, fun _ => hcut⟩, f1, f2, f3⟩
    · simp only [s2]
      split
      · exact r.ne
      · intro f hf
        rcases List.mem_append.1 hf with hf | hf
        · exact r.ne f hf
        · simp at hf; subst hf; exact hr
    · intro hlt; simp only [List.length_append] at hlt; omega
    · intro _
      refine ⟨by rw [← h1, ← f4], by rw [← h2, ← f5], ?_, ?_, ?_⟩
      · show 0 < h'.dataExp - rest.length
        rw [f6]; omega
      · show h'.dataExp - rest.length + _ = _
        rw [bodyLen_append h4, f6]
        simp only [List.length_append]
        omega
      · have hig : ({ h' with dataExp := h'.dataExp - rest.length } : Handler).ignoreFuture =
            h.ignoreFuture := by
          simp [ignoreFuture, f2, f3]
        rw [hig]
        show h'.fragments.flatten = _
        rw [s2]
        by_cases hc : h.ignoreFuture = true ∧ t = kTicketType
        · rw [if_pos hc, if_pos (by simpa using hc), take4_append h4, h6,
            if_pos (by simpa using hc)]
        · rw [if_neg hc, if_neg (by simpa using hc)]
          simp only [List.flatten_append, h6]
          rw [if_neg (by simpa using hc)]
          simp

/-- The body gets complete. -/
theorem read_dat_full {h : Handler} {p rest body rest' : Bytes} {t : UInt8}
    (r : Rel h (t :: p)) (h4 : 4 ≤ (t :: p).length) (he : rest = body ++ rest')
    (hl : (t :: p ++ body).length = 4 + bodyLen (t :: p)) :
    ∃ h', h.readFragment rest = .ok (h', rest', true) ∧ h'.messageType = .ok t ∧
      (∀ f ∈ h'.fragments, f ≠ []) ∧
      h'.fragments.flatten =
        (if h.ignoreFuture = true ∧ t = kTicketType then (t :: p).take 4 else t :: p ++ body) ∧
      h'.fullTickets = h.fullTickets ∧ h'.numFull = h.numFull ∧ h'.retrieved = h.retrieved ∧
      h'.inData = false ∧ h'.hdrExp = 4 ∧
      ∃ pre post, h'.fragments = pre ++ post ∧ pre.flatten.length = 4 := by
  simp only [List.length_append] at hl
  obtain ⟨h1, h2, h3, h5, h6⟩ := r.dat h4
  have hd : h.dataExp = body.length := by omega
  obtain ⟨h', s1, s2⟩ := store_dat r h4 body
  have hbne : body ≠ [] := by
    intro h0; rw [h0] at hd; simp at hd; omega
  unfold readFragment
  rw [if_neg (by simp [h1]), if_pos (by rw [he]; simp; omega)]
  have e1 : rest.take h.dataExp = body := by rw [he, hd]; simp
  have e2 : rest.drop h.dataExp = rest' := by rw [he, hd]; simp
  simp only [e1, e2, s1, exec_bind_ok, exec_pure]
  have hfields : h'.fullTickets = h.fullTickets ∧ h'.numFull = h.numFull ∧
      h'.retrieved = h.retrieved ∧ h'.hdrExp = h.hdrExp := by
    rw [s2]; split <;> simp
  have hne : ∀ f ∈ h'.fragments, f ≠ [] := by
    rw [s2]
    split
    · exact r.ne
    · intro f hf
      rcases List.mem_append.1 hf with hf | hf
      · exact r.ne f hf
      · simp at hf; subst hf; exact hbne
  have hfl : h'.fragments.flatten =
      (if h.ignoreFuture = true ∧ t = kTicketType then (t :: p).take 4 else t :: p ++ body) := by
    rw [s2]
    by_cases hc : h.ignoreFuture = true ∧ t = kTicketType
    · rw [if_pos hc, if_pos hc, h6, if_pos (by simpa using hc)]
    · rw [if_neg hc, if_neg hc]
      simp only [List.flatten_append, h6]
      rw [if_neg (by simpa using hc)]
      simp
  have hcut : ∃ pre post, h'.fragments = pre ++ post ∧ pre.flatten.length = 4 := by
    obtain ⟨pre, post, c1, c2⟩ := r.cut h4
    rw [s2]
    split
    · exact ⟨pre, post, c1, c2⟩
    · exact ⟨pre, post ++ [body], by simp [c1], c2⟩
  refine ⟨_, rfl, ?_, hne, hfl, hfields.1, hfields.2.1, hfields.2.2.1, rfl,
    by rw [← h2]; exact hfields.2.2.2, hcut⟩
  refine messageType_of _ t (if h.ignoreFuture = true ∧ t = kTicketType then p.take 3 else p ++ body)
    hne ?_
  show h'.fragments.flatten = _
  rw [hfl]
  split <;> simp

end S2A.Handler
