import Verif.Spec.Handover
import Verif.Lemmas.ReferenceHist
import Verif.Lemmas.FrameSession
import Verif.Lemmas.Unprotect
import Verif.Lemmas.HandshakeRecord
namespace S2A
open Spec (Machine recordCount)

theorem _root_.S2A.Spec.Machine.Calm.eq_start {m : Machine} (h : m.Calm) :
    m = Machine.start m.out m.inp := by
  obtain ⟨h1, h2, h3, h4, h5, h6, h7, h8⟩ := h
  cases m
  simp only at h1 h2 h3 h4 h5 h6 h7 h8
  subst h1 h2 h3 h4 h5 h6 h7 h8
  rfl

theorem calm_start (out inp : Spec.Dir) : (Machine.start out inp).Calm :=
  ⟨rfl, rfl, rfl, rfl, rfl, rfl, rfl, rfl⟩

namespace Frame

/-- A record with a key update, on a connection about which there is nothing else to know. -/
theorem calm_update {L : Lib} {m : Machine} (hm : m.Calm) (request : UInt8) (k : Nat)
    (hk : k ≤ 16379) (hseq : m.inp.seq < 2 ^ 64) :
    m.frameStep L (.unprotect (m.inp.protect L
      (Spec.innerPlaintext (Spec.keyUpdateMessage request) Spec.handshakeType k))) =
      some ({ m with inp := m.inp.update L }, .ok, [[]]) := by
  have hil : (Spec.innerPlaintext (Spec.keyUpdateMessage request) Spec.handshakeType k).length =
      6 + k := by
    simp [Spec.innerPlaintext, Spec.keyUpdateMessage]; omega
  obtain ⟨pl, h1, h2, h3⟩ := Record.protect_parts L m.inp
    (Spec.innerPlaintext (Spec.keyUpdateMessage request) Spec.handshakeType k) (by omega)
  rw [h1]
  have hhd : (Spec.recordHeader pl.length).length = 5 := rfl
  have hlen : (Spec.recordHeader pl.length ++ pl).length = 5 + pl.length := by
    rw [List.length_append, hhd]
  simp only [Machine.frameStep, Machine.unprotect, hlen]
  rw [if_neg (by omega), show 5 + pl.length = (4 + pl.length) + 1 by omega,
    unprotectAll_succ (by omega)]
  have hf := firstRecord_whole (hd := Spec.recordHeader pl.length) (payload := pl)
    ⟨by omega, rfl⟩ []
  rw [List.append_nil] at hf
  rw [hf]
  have hrec : m.receive L (Spec.recordHeader pl.length) pl pl.length =
      some ({ m with inp := m.inp.update L }, .ok, []) := by
    unfold Machine.receive
    simp only [hhd]
    rw [if_neg (by rw [hm.closed]; simp), if_neg (by omega), if_neg (by omega), if_neg (by simp),
      if_neg (by rw [hm.inDead]; simp; omega), if_neg (by omega), h3]
    simp only [Machine.plaintext]
    rw [Record.unpad_inner _ _ _ (by decide)]
    show (if Spec.handshakeType = Spec.alertType then _ else if Spec.handshakeType = Spec.handshakeType then _ else _) = _
    rw [if_neg (by decide), if_pos rfl]
    unfold Machine.hear
    simp only [hm.ear, Spec.Ear.hear]
    have hsp : Spec.hsSplit ([] ++ Spec.keyUpdateMessage request) =
        ([Spec.keyUpdateMessage request], []) := by
      have := Handler.hsSplit_cons (m := Spec.keyUpdateMessage request) (s := []) (by rfl)
      rw [List.append_nil, Handler.hsSplit_nil] at this
      exact this
    rw [hsp, if_neg (by simp [Spec.keyUpdateMessage])]
    simp only [Spec.Ear.read]
    rw [if_neg (by simp [Spec.keyUpdateMessage, Spec.ticketType]),
      if_pos (by simp [Spec.keyUpdateMessage, Spec.updateType]),
      if_neg (by simp [Spec.keyUpdateMessage]), if_pos (by simp)]
    simp only [hm.kept]
    have e := hm.eq_start
    rw [e]
    simp [Machine.start, Spec.Ear.busy, Spec.Dir.update, Spec.Dir.next]
  show (m.receive L (Spec.recordHeader pl.length) pl pl.length).bind _ = _
  rw [hrec]
  simp only [Option.bind_some, if_true]
  have : ∀ (fuel : Nat) (m : Machine), m.unprotectAll L fuel [] = some (m, .ok, []) := by
    intro fuel m
    cases fuel with
    | zero => rfl
    | succ n => rw [Machine.unprotectAll, if_pos (by simp)]
  rw [this]
  rfl

/-- The suites do not change. -/
def Suited (m m' : Machine) : Prop := m'.out.suite = m.out.suite ∧ m'.inp.suite = m.inp.suite

theorem Suited.refl (m : Machine) : Suited m m := ⟨rfl, rfl⟩
theorem Suited.trans {a b c : Machine} (h : Suited a b) (h' : Suited b c) : Suited a c :=
  ⟨h'.1.trans h.1, h'.2.trans h.2⟩

theorem send_suited {L : Lib} {m m' : Machine} {t c r x} (h : m.send L t c r = (m', x)) :
    Suited m m' := by
  unfold Machine.send at h
  split at h
  · cases h; exact .refl m
  · split at h
    · cases h; exact .refl m
    · split at h <;> cases h <;> exact ⟨rfl, rfl⟩

theorem sendAll_suited {L : Lib} {xs : List Bytes} : ∀ {m m' : Machine} {room x},
    m.sendAll L xs room = (m', x) → Suited m m' := by
  induction xs with
  | nil => intro m m' room x h; cases h; exact .refl m
  | cons y ys ih =>
    intro m m' room x h
    simp only [Machine.sendAll] at h
    split at h
    · next m1 w h1 =>
      have h1 := send_suited h1
      split at h
      · next h2 => cases h; exact h1.trans (ih h2)
      · next h2 => cases h; exact h1.trans (ih h2)
    · next h1 => cases h; exact send_suited h1

theorem hear_suited {L : Lib} {m m' : Machine} {c x} (h : m.hear L c = some (m', x)) :
    Suited m m' := by
  unfold Machine.hear at h
  split at h
  · cases h
  · next ear s _ =>
    simp only at h
    split at h
    · cases h; exact ⟨rfl, rfl⟩
    · have hi : (if s.update then m.inp.update L else m.inp).suite = m.inp.suite := by
        split <;> rfl
      split at h
      · split at h <;> cases h <;> exact ⟨rfl, hi⟩
      · cases h; exact ⟨rfl, hi⟩

theorem plaintext_suited {L : Lib} {m m' : Machine} {c x}
    (h : m.plaintext L c = some (m', x)) : Suited m m' := by
  unfold Machine.plaintext at h
  split at h
  · cases h; exact .refl m
  · split at h
    · split at h
      · cases h; exact .refl m
      · split at h <;> cases h <;> exact ⟨rfl, rfl⟩
    · split at h
      · exact hear_suited h
      · split at h
        · split at h
          · cases h; exact .refl m
          · split at h <;> cases h <;> exact ⟨rfl, rfl⟩
        · cases h; exact .refl m

theorem receive_suited {L : Lib} {m m' : Machine} {hd pl room x}
    (h : m.receive L hd pl room = some (m', x)) : Suited m m' := by
  unfold Machine.receive at h
  simp only at h
  split at h
  · cases h; exact .refl m
  · split at h
    · cases h; exact .refl m
    · split at h
      · cases h; exact .refl m
      · split at h
        · cases h; exact .refl m
        · split at h
          · cases h; exact .refl m
          · split at h
            · cases h; exact ⟨rfl, rfl⟩
            · split at h
              · cases h; exact ⟨rfl, rfl⟩
              · exact Suited.trans (b := { m with inp := m.inp.next }) ⟨rfl, rfl⟩ (plaintext_suited h)

theorem unprotectAll_suited {L : Lib} : ∀ {fuel : Nat} {m m' : Machine} {b x},
    m.unprotectAll L fuel b = some (m', x) → Suited m m' := by
  intro fuel
  induction fuel with
  | zero => intro m m' b x h; cases h; exact .refl m
  | succ n ih =>
    intro m m' b x h
    simp only [Machine.unprotectAll] at h
    split at h
    · cases h; exact .refl m
    · split at h
      · cases h; exact .refl m
      · split at h
        · cases h
        · next h1 =>
          have h1 := receive_suited h1
          split at h
          · cases h
          · next h2 => cases h; exact h1.trans (ih h2)
          · next h2 => cases h; exact h1.trans (ih h2)
        · next h1 => cases h; exact receive_suited h1

theorem frameStep_suited {L : Lib} {m m' : Machine} {c a}
    (h : m.frameStep L c = some (m', a)) : Suited m m' := by
  have hp : ∀ {b room}, some (Spec.handOut (m.protect L b room)) = some (m', a) → Suited m m' := by
    intro b room h
    cases e : m.protect L b room with
    | mk m1 x =>
      have e1 : Suited m m1 := sendAll_suited e
      rw [e] at h
      obtain ⟨st, w⟩ := x
      cases st <;> cases h <;> exact e1
  cases c with
  | protect b => exact hp h
  | protectInto b room => exact hp h
  | unprotect b =>
    simp only [Machine.frameStep, Machine.unprotect] at h
    split at h
    · cases h; exact .refl m
    · exact unprotectAll_suited h
  | unprotectInto b room =>
    simp only [Machine.frameStep, Machine.unprotectFirst] at h
    split at h
    · cases h; exact .refl m
    · split at h
      · cases h; exact .refl m
      · split at h
        · cases h
        · next h1 => cases h; exact receive_suited h1
        · next h1 => cases h; exact receive_suited h1

theorem frameRun_suited {L : Lib} {xs : List Spec.FrameCall} : ∀ {m m' : Machine} {as},
    m.frameRun L xs = some (m', as) → Suited m m' := by
  induction xs with
  | nil => intro m m' as h; cases h; exact .refl m
  | cons x xs ih =>
    intro m m' as h
    simp only [Machine.frameRun] at h
    split at h
    · cases h
    · next h1 =>
      split at h
      · cases h
      · next h2 => cases h; exact (frameStep_suited h1).trans (ih h2)

/-- Two histories of the machine, one after the other. -/
theorem frameRun_append {L : Lib} {xs ys : List Spec.FrameCall} : ∀ {m m1 : Machine}
    {as : List Spec.FrameAnswer}, m.frameRun L xs = some (m1, as) →
    m.frameRun L (xs ++ ys) = (m1.frameRun L ys).map fun y => (y.1, as ++ y.2) := by
  induction xs with
  | nil =>
    intro m m1 as h
    cases h
    simp only [List.nil_append]
    cases Machine.frameRun L m ys <;> rfl
  | cons x xs ih =>
    intro m m1 as h
    simp only [List.cons_append, Machine.frameRun] at h ⊢
    cases h1 : m.frameStep L x with
    | none => rw [h1] at h; cases h
    | some y =>
      obtain ⟨m2, a⟩ := y
      rw [h1] at h
      simp only at h ⊢
      cases h2 : m2.frameRun L xs with
      | none => rw [h2] at h; cases h
      | some z =>
        obtain ⟨m3, bs⟩ := z
        rw [h2] at h
        cases h
        rw [ih h2]
        cases Machine.frameRun L m1 ys <;> rfl

end Frame
end S2A
