import Verif.Lemmas.NullCopy
namespace S2A.NullCopy
open Handler

/-- The handler waits for at least one byte, and no kept fragment is empty. -/
structure Wait (h : Handler) : Prop where
  hdr : 0 < h.hdrExp
  dat : h.inData = true → 0 < h.dataExp
  ne : ∀ f ∈ h.fragments, f ≠ []
  tickets : ∀ ts, h.fullTickets = some ts → ∀ t ∈ ts, ∀ f ∈ t, f ≠ []

theorem wait_init : Wait init :=
  ⟨by decide, by decide, by simp [init], by simp [init]⟩

theorem store_eq {h : Handler} {b : Bytes} (hb : b ≠ []) : store h b = h.store b := by
  unfold store Handler.store
  simp only [copy_ne hb, exec_bind_ok]

/-- `store` only adds a fragment. -/
theorem store_shape {h h' : Handler} {b : Bytes} (h1 : h.store b = .ok h') :
    h' = h ∨ h' = { h with fragments := h.fragments ++ [b] } := by
  unfold Handler.store at h1
  split at h1
  · cases ht : h.messageType with
    | error e => simp [ht] at h1
    | ok t =>
      simp only [ht, exec_bind_ok] at h1
      split at h1
      · cases h1; exact .inl rfl
      · cases h1; exact .inr rfl
  · cases h1; exact .inr rfl

theorem store_frags {h h' : Handler} {b : Bytes} (hb : b ≠ []) (hw : ∀ f ∈ h.fragments, f ≠ [])
    (h1 : h.store b = .ok h') :
    (∀ f ∈ h'.fragments, f ≠ []) ∧ h'.fullTickets = h.fullTickets ∧ h'.hdrExp = h.hdrExp ∧
      h'.dataExp = h.dataExp ∧ h'.inData = h.inData := by
  rcases store_shape h1 with rfl | rfl
  · exact ⟨hw, rfl, rfl, rfl, rfl⟩
  · refine ⟨?_, rfl, rfl, rfl, rfl⟩
    intro f hf
    rcases List.mem_append.1 hf with hf | hf
    · exact hw f hf
    · rw [List.mem_singleton.1 hf]; exact hb

theorem take_ne {n : Nat} {d : Bytes} (hn : 0 < n) (hd : d ≠ []) : d.take n ≠ [] := by
  cases d with
  | nil => exact absurd rfl hd
  | cons x xs =>
    cases n with
    | zero => omega
    | succ n => simp

theorem readFragment_eq {h : Handler} {rest : Bytes} (hw : Wait h) (hr : rest ≠ []) :
    readFragment h rest = h.readFragment rest := by
  unfold readFragment Handler.readFragment
  split
  · split
    · simp only [store_eq (take_ne hw.hdr hr)]
    · simp only [store_eq hr]
  · rename_i hd
    have hd := hw.dat (by simpa using hd)
    split
    · simp only [store_eq (take_ne hd hr)]
    · simp only [store_eq hr]

theorem readFragment_wait {h h' : Handler} {rest rest' : Bytes} {full : Bool} (hw : Wait h)
    (hr : rest ≠ []) (h1 : h.readFragment rest = .ok (h', rest', full)) : Wait h' := by
  unfold Handler.readFragment at h1
  split at h1
  · split at h1
    · cases hs : h.store (rest.take h.hdrExp) with
      | error e => simp [hs] at h1
      | ok g =>
        obtain ⟨a, b, c, d, e⟩ := store_frags (take_ne hw.hdr hr) hw.ne hs
        simp only [hs, exec_bind_ok] at h1
        cases hz : Handler.dataSizeFromHeader { g with hdrExp := kHeaderLen } with
        | error e => simp [hz] at h1
        | ok sz =>
          simp only [hz, exec_bind_ok, exec_pure] at h1
          cases h1
          exact ⟨Nat.succ_pos 3, by simp, a, fun ts ht => hw.tickets ts (b ▸ ht)⟩
    · rename_i hlt
      cases hs : h.store rest with
      | error e => simp [hs] at h1
      | ok g =>
        obtain ⟨a, b, c, d, e⟩ := store_frags hr hw.ne hs
        simp only [hs, exec_bind_ok, exec_pure] at h1
        cases h1
        refine ⟨?_, ?_, a, fun ts ht => hw.tickets ts (b ▸ ht)⟩
        · simp only [c]; omega
        · simp only [d, e]; exact hw.dat
  · split at h1
    · rename_i hd _
      cases hs : h.store (rest.take h.dataExp) with
      | error e => simp [hs] at h1
      | ok g =>
        obtain ⟨a, b, c, d, e⟩ := store_frags (take_ne (hw.dat (by simpa using hd)) hr) hw.ne hs
        simp only [hs, exec_bind_ok, exec_pure] at h1
        cases h1
        exact ⟨by simp only [c]; exact hw.hdr, by simp, a, fun ts ht => hw.tickets ts (b ▸ ht)⟩
    · rename_i hlt
      cases hs : h.store rest with
      | error e => simp [hs] at h1
      | ok g =>
        obtain ⟨a, b, c, d, e⟩ := store_frags hr hw.ne hs
        simp only [hs, exec_bind_ok, exec_pure] at h1
        cases h1
        refine ⟨by simp only [c]; exact hw.hdr, ?_, a, fun ts ht => hw.tickets ts (b ▸ ht)⟩
        intro _
        simp only [d]; omega

theorem Wait.clear {h : Handler} (hw : Wait h) : Wait { h with fragments := [] } :=
  ⟨hw.hdr, hw.dat, by simp, hw.tickets⟩

theorem addTicket_wait {h h' : Handler} (hw : Wait h) (h1 : h.addTicket = .ok h') : Wait h' := by
  unfold Handler.addTicket at h1
  cases ht : h.fullTickets with
  | none => simp [ht] at h1
  | some ts =>
    simp only [ht] at h1
    cases h1
    refine ⟨hw.hdr, hw.dat, by simp, ?_⟩
    intro ts' he t hm
    simp only [Option.some.injEq] at he
    rw [← he] at hm
    rcases List.mem_append.1 hm with hm | hm
    · exact hw.tickets ts ht t hm
    · rw [List.mem_singleton.1 hm]; exact hw.ne

theorem loop_eq : ∀ (fuel : Nat) (h : Handler) (rest : Bytes) (ku tk : Bool), Wait h →
    loop fuel h rest ku tk = Handler.loop fuel h rest ku tk
  | 0, _, _, _, _, _ => rfl
  | fuel + 1, h, rest, ku, tk, hw => by
    unfold loop Handler.loop
    by_cases hr : rest = []
    · subst hr; rfl
    · rw [if_neg (by simpa using hr), if_neg (by simpa using hr), readFragment_eq hw hr]
      cases hf : h.readFragment rest with
      | error e => rfl
      | ok x =>
        obtain ⟨h1, rest1, full⟩ := x
        have hw1 := readFragment_wait hw hr hf
        simp only [exec_bind_ok]
        cases ht : h1.messageType with
        | error e => rfl
        | ok t =>
          simp only [exec_bind_ok, loop_eq fuel h1 rest1 _ _ hw1]
          split
          · rfl
          · split
            · split
              · split
                · simp only [exec_pure, exec_bind_ok]
                  rw [loop_eq fuel _ _ _ _ hw1.clear]
                · cases ha : h1.addTicket with
                  | error e => rfl
                  | ok h2 =>
                    simp only [exec_bind_ok]
                    rw [loop_eq fuel _ _ _ _ (addTicket_wait hw1 ha).clear]
              · rfl
            · rfl

theorem loop_wait : ∀ (fuel : Nat) (h : Handler) (rest : Bytes) (ku tk : Bool) (h' : Handler)
    (r : Except StatusCode Handler.Result), Wait h →
    Handler.loop fuel h rest ku tk = .ok (h', r) → Wait h'
  | 0, _, _, _, _, _, _, _, h1 => by simp [Handler.loop] at h1
  | fuel + 1, h, rest, ku, tk, h', r, hw, h1 => by
    unfold Handler.loop at h1
    by_cases hr : rest = []
    · subst hr
      rw [if_pos (by rfl)] at h1
      cases h1
      exact hw
    · rw [if_neg (by simpa using hr)] at h1
      cases hf : h.readFragment rest with
      | error e => simp [hf] at h1
      | ok x =>
        obtain ⟨g, rest1, full⟩ := x
        have hw1 := readFragment_wait hw hr hf
        simp only [hf, exec_bind_ok] at h1
        cases ht : g.messageType with
        | error e => simp [ht] at h1
        | ok t =>
          simp only [ht, exec_bind_ok] at h1
          split at h1
          · split at h1
            · split at h1
              · cases h1; exact hw1
              · cases h1; exact hw1.clear
            · exact loop_wait fuel _ _ _ _ _ _ hw1 h1
          · split at h1
            · split at h1
              · split at h1
                · simp only [exec_pure, exec_bind_ok] at h1
                  exact loop_wait fuel _ _ _ _ _ _ hw1.clear h1
                · cases ha : g.addTicket with
                  | error e => simp [ha] at h1
                  | ok h2 =>
                    simp only [ha, exec_bind_ok] at h1
                    exact loop_wait fuel _ _ _ _ _ _ (addTicket_wait hw1 ha).clear h1
              · exact loop_wait fuel _ _ _ _ _ _ hw1 h1
            · cases h1; exact hw1

theorem getStoredTickets_wait {h h' : Handler} {r : Except StatusCode (List (List Bytes))}
    (hw : Wait h) (h1 : h.getStoredTickets = .ok (h', r)) :
    Wait h' ∧ ∀ ts, r = .ok ts → ∀ t ∈ ts, ∀ f ∈ t, f ≠ [] := by
  unfold Handler.getStoredTickets at h1
  split at h1
  · cases h1; exact ⟨hw, by simp⟩
  · have tail : ∀ w : Bool, (if w = true then pure (h, Except.error StatusCode.internal) else
        match h.fullTickets with
        | none => Except.error UB.assertFail
        | some ts => pure ({ h with retrieved := true, numFull := 0, fullTickets := none },
            Except.ok ts) : Exec (Handler × Except StatusCode (List (List Bytes)))) = .ok (h', r) →
        Wait h' ∧ ∀ ts, r = .ok ts → ∀ t ∈ ts, ∀ f ∈ t, f ≠ [] := by
      intro w h2
      split at h2
      · cases h2; exact ⟨hw, by simp⟩
      · cases ht : h.fullTickets with
        | none => simp [ht] at h2
        | some ts =>
          simp only [ht] at h2
          cases h2
          refine ⟨⟨hw.hdr, hw.dat, hw.ne, by simp⟩, ?_⟩
          intro ts' he
          cases he
          exact hw.tickets ts ht
    by_cases hx : h.expectingMore = true
    · simp only [hx, if_true] at h1
      cases hm : h.messageType with
      | error e => simp [hm] at h1
      | ok t =>
        simp only [hm, exec_bind_ok, exec_pure] at h1
        exact tail _ h1
    · simp only [hx] at h1
      exact tail false h1

theorem after_wait : ∀ (ops : List HOp) (h h' : Handler), Wait h → after h ops = .ok h' → Wait h'
  | [], h, h', hw, h1 => by cases h1; exact hw
  | .process b :: ops, h, h', hw, h1 => by
    unfold after at h1
    cases hp : h.process b with
    | error e => simp [hp] at h1
    | ok x =>
      simp only [hp, exec_bind_ok] at h1
      exact after_wait ops _ _ (loop_wait _ _ _ _ _ _ _ hw hp) h1
  | .tickets :: ops, h, h', hw, h1 => by
    unfold after at h1
    cases hp : h.getStoredTickets with
    | error e => simp [hp] at h1
    | ok x =>
      simp only [hp, exec_bind_ok] at h1
      exact after_wait ops _ _ (getStoredTickets_wait hw hp).1 h1

theorem merge_eq : ∀ (t : List Bytes), (∀ f ∈ t, f ≠ []) → merge t = .ok t.flatten
  | [], _ => rfl
  | f :: fs, h => by
    unfold merge
    rw [copy_ne (h f (by simp)), exec_bind_ok,
      merge_eq fs fun g hg => h g (List.mem_cons_of_mem _ hg)]
    rfl

theorem mapM_merge : ∀ (ts : List (List Bytes)), (∀ t ∈ ts, ∀ f ∈ t, f ≠ []) →
    ts.mapM merge = .ok (ts.map List.flatten)
  | [], _ => rfl
  | t :: ts, h => by
    rw [List.mapM_cons, merge_eq t (h t (by simp)), exec_bind_ok,
      mapM_merge ts fun u hu => h u (List.mem_cons_of_mem _ hu)]
    rfl

end S2A.NullCopy
