import Verif.Model.Util
/-
src/record_protocol/s2a_upb_ticket_sender.cc
-/
namespace S2A.TicketSender
open S2A.Proto S2A.Util

/-- `PrepareResumptionTicketReq` (s2a_upb_ticket_sender.cc:32-80) with a non-null arena, on a
request `req`: the result and the request afterwards.  `tickets` is `none` for the null
pointer; the tickets themselves must not be null (asserted). -/
def prepare (connectionId : UInt64) (localIdentity : Identity) (tickets : Option (List Bytes))
    (req : SessionReq) : Bool × SessionReq :=
  match tickets with
  | none => (false, req)
  | some ts =>
    -- mutable_resumption_ticket keeps an existing ticket request, else makes a new one
    let t : TicketReq := match req.kind with
      | .resumptionTicket t => t
      | _ => ⟨[], 0, none⟩
    let t := { t with connectionId := connectionId.toNat }
    -- mutable_local_identity keeps an existing identity
    let t := { t with localIdentity := some (t.localIdentity.getD .unset) }
    match identityToProto localIdentity with
    | none => (false, { req with kind := .resumptionTicket t })
    | some i =>
      let t := { t with localIdentity := some i, inBytes := t.inBytes ++ ts }
      (true, { req with kind := .resumptionTicket t })

end S2A.TicketSender
