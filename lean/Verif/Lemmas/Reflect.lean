import Verif.Spec.Reflect
import Verif.Lemmas.Adversary
import Verif.Lemmas.Session
/-
Records that come back to the connection that made them.
-/
namespace S2A
open HalfConn

namespace Record
open Spec (opens epochs)

theorem opens_key {L : Lib} {s secret} {evs : List Event} {e q : Nat}
    (hf : Spec.Follows L s secret e q (inTrace evs)) {c} (hc : c ∈ opens evs) :
    ∃ i ≤ e + epochs (inTrace evs),
      c.key = Spec.trafficKey L s.hash (Spec.secretAfter L s.hash secret i) s.keyLen := by
  induction evs generalizing e q with
  | nil => exact absurd hc List.not_mem_nil
  | cons ev evs ih =>
    cases ev with
    | sealed r => exact ih hf hc
    | outboundUpdated st => exact ih hf hc
    | opened r =>
      have hrest : ∀ k, Spec.Follows L s secret e (q + k)
            ((match r.rekey with | some .ok => [Spec.KeyUse.rekey] | _ => []) ++ inTrace evs) →
          c ∈ opens evs →
          ∃ i ≤ e + epochs
              ((match r.rekey with | some .ok => [Spec.KeyUse.rekey] | _ => []) ++ inTrace evs),
            c.key = Spec.trafficKey L s.hash (Spec.secretAfter L s.hash secret i) s.keyLen := by
        intro k hf hm
        by_cases hrk : r.rekey = some .ok
        · simp only [hrk, List.cons_append, List.nil_append] at hf ⊢
          obtain ⟨i, h1, h2⟩ := ih (e := e + 1) (q := 0) hf hm
          exact ⟨i, by simp only [epochs]; omega, h2⟩
        · have he : (match r.rekey with
              | some .ok => [Spec.KeyUse.rekey] | _ => []) = ([] : List Spec.KeyUse) := by
            split
            · next h => exact absurd h hrk
            · rfl
          rw [he] at hf ⊢
          exact ih hf hm
      simp only [inTrace, Result.uses, List.append_assoc] at hf ⊢
      simp only [opens] at hc
      cases hcall : r.call with
      | none =>
        rw [hcall] at hc hf
        exact hrest 0 hf hc
      | some c' =>
        rw [hcall] at hc hf
        obtain ⟨f1, f2, f3, f4⟩ := hf
        simp only [List.cons_append, List.nil_append, epochs]
        simp only at hc
        split at hc
        · rcases List.mem_cons.1 hc with rfl | hc
          · exact ⟨e, by omega, f1⟩
          · exact hrest 1 f4 hc
        · exact hrest 1 f4 hc

end Record

namespace Frame
open Record (Ready)
open Spec (AllocOk)

/-- One protector whose output comes back. -/
structure EchoOk (L : Lib) (s : State) (wire : List (Bytes × Bytes)) : Prop where
  reach : ∃ a, Record.Reach L a s.conn s.evs
  ready : Ready s.conn
  link : Link L s wire s

theorem EchoOk.start {L : Lib} {o : Options} {s : State} (hs : Created L o s)
    (h1 : o.crypter.inSecret = o.crypter.outSecret)
    (h2 : o.crypter.inSequence = o.crypter.outSequence) : EchoOk L s [] := by
  have h := SessionOk.start hs hs ⟨rfl, h1.symm, h1.symm, h2.symm, h2.symm⟩
  exact ⟨h.reach false, h.ready false, h.link false⟩

theorem EchoOk.echo {L : Lib} {A : Allocator} (hA : AllocOk A) {s0 s wire}
    (h0 : EchoOk L s0 []) (h : Spec.Echo L A s0 s wire) : EchoOk L s wire := by
  induction h with
  | start => exact h0
  | @send s wire f vs s' id w _ hw hp ih =>
    obtain ⟨a, ha⟩ := ih.reach
    obtain ⟨s1, res, e, _, hconn, hcase⟩ := protect_call (A := A) (f := f) (vs := vs) hA ha
    have hst := (protect_steps hp).calls
    rw [hp] at e
    cases e
    refine ⟨?_, ?_, ?_⟩
    · obtain ⟨ops, evs, g1, g2⟩ := hst
      rw [g2]; exact ⟨a, ha.run g1⟩
    · rw [hconn]
      exact ⟨ih.ready.1, ih.ready.2, ih.ready.3, ih.ready.4, ih.ready.5, ih.ready.6⟩
    · obtain ⟨d, d', l1, l2, l3⟩ := ih.link
      rcases hcase with ⟨_, _, b', hb, hl, hall⟩ | ⟨hno, _⟩
      · obtain ⟨q1, q2, q3⟩ := hall d' l1
        cases hb
        rw [q3 hw]
        rw [hw.totalLen_eq] at q1 q2
        exact ⟨d, _, q1, by rw [hconn]; exact l2, l3.append (.message q2 (.nil _))⟩
      · exact absurd rfl hno
  | @back s w m wire g ws s' r _ hv hb hf hu ih =>
    obtain ⟨d, d', l1, l2, l3⟩ := ih.link
    obtain ⟨s1, bufs, d1, e1, e2, e3, e4, e5⟩ := l3.receive hA hf hv hb l2 ih.ready
    have hout := unprotect_outC hu
    have hst := (unprotect_steps hu).calls
    rw [hu] at e1
    cases e1
    obtain ⟨a, ha⟩ := ih.reach
    refine ⟨?_, e4, d1, d', by rw [hout]; exact l1, e3, e5⟩
    obtain ⟨ops, evs, g1, g2⟩ := hst
    rw [g2]; exact ⟨a, ha.run g1⟩

end Frame
end S2A
