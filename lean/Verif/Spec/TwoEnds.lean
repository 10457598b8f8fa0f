import Verif.Spec.Update
import Verif.Spec.Message

/-!
# The two ends of a session

Only the data types of the model are used.
-/

namespace Zbgp.Spec

open Zbgp

/-- The first AddPath entry for the family in the first AddPath capability. -/
def firstOffer (caps : List BgpCapability) (fam : U16 × U8) : Option BgpCapAddPath :=
  ((addPathLists caps).headD []).find? fun a => decide (family a = fam)

/-- The capability as the other end of a settled session has it: what one end sends the other one receives. -/
def mirrorCap : BgpCapability → BgpCapability
  | .CapAddPath v => .CapAddPath (v.map fun a => { a with send := a.receive, receive := a.send })
  | c => c

/-- The session of an ideal other end: it receives what this one sends, and does not guess. -/
def mirror (p : BgpSessionParams) : BgpSessionParams := { p with caps := p.caps.map mirrorCap, fuzzyPathid := false }

/-- Every part of the message can be put on the wire, and is of the form the sending session calls for: with path identifiers
exactly in the families of which the session sends them. -/
def SendOk (p : BgpSessionParams) (m : BgpUpdateMessage) : Prop := PartsOk (mirror p) m

/-- The two ends agree for the family: the one expects path identifiers exactly if the other one sends them. -/
def Agree (sender receiver : BgpSessionParams) (fam : U16 × U8) : Prop :=
  SendsAddPath sender.caps fam = ReceivesAddPath receiver.caps fam

/-- What the receiving end makes of the message. -/
def messageReceived (p : BgpSessionParams) (m : BgpUpdateMessage) : BgpUpdateMessage :=
  ⟨sectionReceived p m.updates, sectionReceived p m.withdraws, m.attrs.map attrReceived⟩

/-- The message, sent in one session, arrives in the other as it is: in every buffer with room for it, the sender writes octets
from which the receiver gets it back. -/
def Arrives (sender receiver : BgpSessionParams) (m : BgpUpdateMessage) : Prop :=
  ∀ buf : Bytes, (updateWire sender m).length ≤ buf.length →
    ∃ buf' n, m.encodeTo sender buf = .ok (buf', n) ∧
      BgpUpdateMessage.new.decodeFrom receiver (buf'.take n) = .ok (messageReceived receiver m)

end Zbgp.Spec
