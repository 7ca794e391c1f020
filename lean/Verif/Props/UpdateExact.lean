import Verif.Props.Undefined
/-
C27 and C28, exactly: which key updates are accepted.
-/
namespace S2A.Record
open Spec (Reader reader hsSplit ticketType updateType hsMessage)
open Demo

set_option maxRecDepth 100000

/-- Reading some tickets (with a body) and a key update. -/
theorem read_update {pre : List Bytes} {m : Bytes} (ms : List Bytes) (q : Bytes)
    (hpre : ∀ x ∈ pre, x.head? = some ticketType ∧ x.length ≠ 4) (hm : m.head? = some updateType) :
    Reader.read (pre ++ m :: ms) q =
      if m.length = 4 then Reader.wait false 0 (ms.flatten ++ q)
      else if ms = [] ∧ q = [] then some (.inside [], true) else some (.stale false 0, false) := by
  induction pre with
  | nil =>
    rw [List.nil_append, Reader.read, if_pos (Or.inr hm)]
    rw [if_neg (c := m.head? = some ticketType) (by rw [hm]; decide)]
  | cons x pre ih =>
    obtain ⟨h1, h2⟩ := hpre x (by simp)
    rw [List.cons_append, Reader.read, if_pos (Or.inl h1), if_neg h2, if_pos h1]
    exact ih fun y hy => hpre y (by simp [hy])

/-- Messages in order so far.  With this record the handshake bytes are some tickets (with a
body), a key update, and whatever follows it.  The record is accepted exactly if nothing follows,
or if the key update has an empty body and at most three bytes follow (and if the crypto library
does not fail).  With an empty body and more bytes the behaviour is undefined. -/
theorem C27_exact (L : Lib) (a : CreateArgs) (c c' : Conn) (evs : List Event) (f : Fault)
    (header : Iovec) (payload : List Iovec) (out : Iovec) (r : Result)
    (got content m q : Bytes) (pre ms : List Bytes) (hr : Reach L a c evs)
    (ho : reader (handshakes evs) = some (.inside got))
    (h : unprotect L f c header payload out = .ok (c', r))
    (hc : r.record = some (content, Spec.handshakeType))
    (hs : hsSplit (got ++ content) = (pre ++ m :: ms, q))
    (hpre : ∀ x ∈ pre, x.head? = some ticketType ∧ x.length ≠ 4)
    (hm : m.head? = some updateType) :
    (m.length = 4 → (ms.flatten ++ q).length < 4) ∧
    (r.code = .ok ↔ (m.length = 4 ∨ (ms = [] ∧ q = [])) ∧ (r.rekey = none ∨ r.rekey = some .ok)) := by
  obtain ⟨rd, rd', ok, h1, h2, h3⟩ :=
    C29_every_handshake_record L a c c' evs f header payload out r content hr h hc
  rw [ho] at h1
  cases h1
  rw [Reader.hear, hs, read_update ms q hpre hm] at h2
  rw [h3]
  by_cases h4 : m.length = 4
  · rw [if_pos h4, Reader.wait] at h2
    split at h2
    · next hl =>
      cases h2
      refine ⟨fun _ => by omega, by simp [h4]⟩
    · cases h2
  · rw [if_neg h4] at h2
    refine ⟨fun h => absurd h h4, ?_⟩
    split at h2
    · next he => cases h2; simp [he]
    · next he => cases h2; simp [he, h4]

/-- Messages in order so far, none incomplete: a record that is one key update is accepted,
whatever its body is, even an empty one: neither the request byte nor the length is looked
at. -/
theorem C28_every_body_accepted (L : Lib) (a : CreateArgs) (c c' : Conn) (evs : List Event)
    (f : Fault) (header : Iovec) (payload : List Iovec) (out : Iovec) (r : Result) (body : Bytes)
    (hr : Reach L a c evs) (ho : reader (handshakes evs) = some (.inside []))
    (h : unprotect L f c header payload out = .ok (c', r))
    (hc : r.record = some (hsMessage updateType body, Spec.handshakeType))
    (hlt : body.length < 2 ^ 24) (hk : r.rekey = none ∨ r.rekey = some .ok) :
    r.code = .ok := by
  have hml : (hsMessage updateType body).length =
      4 + Handler.bodyLen (hsMessage updateType body) := by
    simp only [hsMessage, List.length_cons, Handler.bodyLen, Spec.len24, UInt8.toNat_ofNat']
    omega
  have hsp := Handler.hsSplit_cons (m := hsMessage updateType body) (s := []) hml
  rw [List.append_nil] at hsp
  have := (C27_exact L a c c' evs f header payload out r [] _ (hsMessage updateType body)
    [] [] [] hr ho h hc (by rw [List.nil_append, hsp, show hsSplit [] = ([], []) by unfold hsSplit; rfl]; rfl) (by simp) rfl).2
  exact this.2 ⟨Or.inr ⟨rfl, rfl⟩, hk⟩

/-- A ticket, a key update with an empty body and two more bytes; and a key update with a body of
three bytes. -/
example : ∃ c1 r1 c2 r2,
    step Lib.toy right (recv (pos 0) [4, 0, 0, 1, 7, 24, 0, 0, 0, 4, 0, 22]) = .ok (c1, .opened r1) ∧
    r1.code = .ok ∧
    hsSplit ([] ++ [4, 0, 0, 1, 7, 24, 0, 0, 0, 4, 0]) =
      ([[4, 0, 0, 1, 7]] ++ [24, 0, 0, 0] :: [], [4, 0]) ∧
    reader (handshakes []) = some (.inside []) ∧
    step Lib.toy right (recv (pos 0) [24, 0, 0, 3, 7, 8, 9, 22]) = .ok (c2, .opened r2) ∧
    r2.record = some (hsMessage updateType [7, 8, 9], Spec.handshakeType) ∧
    r2.rekey = some .ok ∧ r2.code = .ok :=
  ⟨_, _, _, _, rfl, by decide +kernel, by decide +kernel, by decide +kernel, rfl,
    by decide +kernel, by decide +kernel, by decide +kernel⟩

end S2A.Record
