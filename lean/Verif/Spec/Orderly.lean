import Verif.Spec.Adversary
import Verif.Spec.Heard
/-
A sender that follows RFC 8446 with its key updates and its close-notify alert.
-/
namespace S2A.Spec
open Record (Op Event)

/-- The contents of the handshake records that were protected successfully. -/
def sentHandshakes : List Op → List Event → List Bytes
  | .protect _ .handshake pt _ :: ops, .sealed r :: evs =>
    if r.code = .ok then flat pt :: sentHandshakes ops evs else sentHandshakes ops evs
  | _ :: ops, _ :: evs => sentHandshakes ops evs
  | _, _ => []

/-- After the handshake records `hs`, the record `r` completes a key update message. -/
def CompletesUpdate (hs : List Bytes) (r : Bytes) : Prop :=
  (view hs).updates < (view (hs ++ [r])).updates

/-- A history of a sender that has sent the handshake records `hs` before: it updates its key
exactly when it has sent a key update message, and before it protects anything else.
Everything else is free: what it sends, what it receives, which of its calls fail. -/
inductive Orderly : (hs : List Bytes) → List Op → List Event → Prop
  | stop (hs) : Orderly hs [] []
  | receive {hs f h p o r ops evs} : Orderly hs ops evs →
      Orderly hs (.unprotect f h p o :: ops) (.opened r :: evs)
  | failed {hs f rt pt rec r ops evs} : r.code ≠ .ok → Orderly hs ops evs →
      Orderly hs (.protect f rt pt rec :: ops) (.sealed r :: evs)
  | send {hs f rt pt rec r ops evs} : rt ≠ .handshake → Orderly hs ops evs →
      Orderly hs (.protect f rt pt rec :: ops) (.sealed r :: evs)
  | message {hs f pt rec r ops evs} : ¬ CompletesUpdate hs (flat pt) → r.code = .ok →
      Orderly (hs ++ [flat pt]) ops evs →
      Orderly hs (.protect f .handshake pt rec :: ops) (.sealed r :: evs)
  | update {hs f pt rec r g ops evs} : CompletesUpdate hs (flat pt) → r.code = .ok →
      Orderly (hs ++ [flat pt]) ops evs →
      Orderly hs (.protect f .handshake pt rec :: .updateOutboundKey g :: ops)
        (.sealed r :: .outboundUpdated .ok :: evs)
  | updating {hs f pt rec r} : Orderly hs [.protect f .handshake pt rec] [.sealed r]

/-- The handshake messages sent are session tickets and key updates, and no key update is cut
over two records. -/
structure GoodMessages (hs : List Bytes) : Prop where
  sane : (view hs).sane = true
  whole : UpdatesWhole hs

/-- No application data is sent after an alert. -/
def ClosesLast : List Op → Prop
  | .protect _ .alert _ _ :: ops => ∀ f pt rec, .protect f .applicationData pt rec ∉ ops
  | _ :: ops => ClosesLast ops
  | [] => True

end S2A.Spec
