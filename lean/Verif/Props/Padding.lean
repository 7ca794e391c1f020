import Verif.Lemmas.FrameSession
import Verif.Lemmas.Reach
import Verif.Props.Demo
/-
What a receiver says of an authentic record without a content type (C21).
-/
namespace S2A.Record
open Record.Demo

set_option maxRecDepth 10000

/-- A record of zeros only, however many, sealed at the current position by whoever holds the
key: the receiver opens it, finds no content type in it, and calls it an invalid record. No
content is delivered, the zeros are all that is written, and the position is used up: nothing
else of the connection changes. It makes no difference what the receiver is waiting
for. -/
theorem C21_all_zero_invalid (L : Lib) (a : CreateArgs) (s : Spec.Suite) (c : Conn)
    (evs : List Event) (f : Fault) (n : Nat) (payload : List Iovec) (ob : Bytes)
    (hs : Spec.suite a.ciphersuite = some s) (hr : Reach L a c evs)
    (hlive : c.inC.alwaysFail = false) (hq : (inPos L a s evs).seq < 2 ^ 64)
    (hcn : c.closeNotify = false) (hf : f.evp = .none)
    (hn : 1 ≤ n) (hmax : n ≤ 2 ^ 14 + 1) (hob : n ≤ ob.length) (hp : AllWF payload)
    (hpay : Spec.recordHeader (n + 16) ++ flat payload =
      (inPos L a s evs).protect L (zeros n)) :
    ∃ c' r, unprotect L f c (.buf (Spec.recordHeader (n + 16))) payload (.buf ob) = .ok (c', r) ∧
      r.code = .invalidRecord ∧ r.written = 0 ∧ r.out = .buf (zeros n ++ ob.drop n) ∧
      r.rekey = none ∧ c' = { c with inC := c'.inC } := by
  rcases hr.inAt hs with hfail | hat
  · rw [hlive] at hfail; cases hfail
  have hz : (zeros n).length = n := by simp [zeros]
  obtain ⟨p, e1, e2, e3⟩ := protect_parts L (inPos L a s evs) (zeros n) (by rw [hz]; omega)
  rw [hz] at e2
  rw [e1, e2] at hpay
  have hps := List.append_cancel_left hpay
  obtain ⟨call, e⟩ := unprotect_next (ob := ob) hat hq hcn (by rw [hz]; omega) hf
    (by rw [hz]; exact e2) e3 hps hp (by rw [hz]; exact hob)
  rw [e2] at e
  have hu : Spec.unpad (zeros n) = none := by
    rcases unpad_cases (zeros n) with ⟨hu, _⟩ | ⟨content, t, k, ht, hpe, hu⟩
    · exact hu
    · have hm : t ∈ zeros n := by rw [hpe]; simp [Spec.innerPlaintext]
      simp [zeros] at hm
      exact absurd hm.2 ht
  rw [e, dispatch_none _ _ _ _ _ _ hu]
  refine ⟨_, _, rfl, rfl, rfl, ?_, rfl, rfl⟩
  rw [hz]

/-- Three zeros at position 0, received by a new connection. -/
example : ∃ c r, step Lib.toy right (recv (pos 0) [0, 0, 0]) = .ok (c, .opened r) ∧
    r.code = .invalidRecord ∧ r.written = 0 := ⟨_, _, rfl, by decide⟩

end S2A.Record
