import Verif.Spec.Observed
import Verif.Spec.Session
/-
Connections about which there is nothing to know but their secrets and sequence numbers.
-/
namespace S2A.Spec

/-- No handshake message is half read, no ticket has come, nobody has closed the connection and no
key update has failed.  (Data may have been sent and received, and keys updated.) -/
structure Machine.Calm (m : Machine) : Prop where
  ear : m.ear = .inside []
  kept : m.kept = []
  stage : m.stage = .fresh
  waiting : m.waiting = false
  closed : m.closed = false
  sent : m.sent = []
  outDead : m.outDead = false
  inDead : m.inDead = false

end S2A.Spec
