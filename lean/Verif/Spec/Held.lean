import Verif.Model.Record
/-
What a connection keeps of the handshake messages it receives.
-/
namespace S2A.Spec

/-- The longest handshake message: a header of four bytes and a body whose length is a 24-bit
number (RFC 8446 section 4). -/
def maxMessage : Nat := 4 + (2 ^ 24 - 1)

/-- The pieces of handshake messages a connection keeps: those of the message it is reading, and
those of the session tickets it has stored. -/
def heldPieces (c : Record.Conn) : List Bytes :=
  c.handler.fragments ++ (c.handler.fullTickets.getD []).flatten

/-- The number of bytes in them. -/
def heldBytes (c : Record.Conn) : Nat := (heldPieces c).flatten.length

end S2A.Spec
