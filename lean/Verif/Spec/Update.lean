import Verif.Model.Update
import Verif.Spec.Attrs

/-!
# The UPDATE message on the wire (RFC 4271 4.3)

Only the data types of the model are used, and, for `Emits`, the encoders that are said to write something.
-/

namespace Zbgp.Spec

open Zbgp

/-- The unicast family of the transport of the session, of which are the prefixes in the body of an UPDATE. -/
def sessionFamily (p : BgpSessionParams) : Family :=
  match p.peerMode with
  | .IPv4 => .ipv4Unicast
  | .IPv6 => .ipv6Unicast

/-- An attribute on the wire, not interpreted. -/
structure RawAttr where
  code : U8
  flags : U8
  value : Bytes
deriving DecidableEq, Repr

/-- Its octets. -/
def rawWire (r : RawAttr) : Bytes := attrHeader r.code r.flags r.value.length ++ r.value

/-- The value fits the length field. -/
def RawWF (r : RawAttr) : Prop := r.value.length ≤ maxValue r.flags

/-- The body of an UPDATE: withdrawn routes length and field, total path attribute length and field, NLRI. -/
def updateBytes (withdrawn attrs nlri : Bytes) : Bytes :=
  be 2 withdrawn.length ++ withdrawn ++ be 2 attrs.length ++ attrs ++ nlri

/-- The collection can be a section of an UPDATE of the session: nothing, or prefixes of the family of the session, in
the form the session calls for. -/
def SectionOk (p : BgpSessionParams) (x : BgpAddrs) : Prop :=
  x = .None ∨ ((∃ addpath, kindOf x = some (sessionFamily p, addpath)) ∧ AddrsWF x ∧ FormExpected p x)

/-- What a receiver gets: for nothing, an empty collection of the family and form of the session. -/
def sectionReceived (p : BgpSessionParams) (x : BgpAddrs) : BgpAddrs :=
  match x with
  | .None =>
    match p.peerMode, ReceivesAddPath p.caps (familyCode (sessionFamily p)) with
    | .IPv4, false => .IPV4U []
    | .IPv4, true => .IPV4UP []
    | .IPv6, false => .IPV6U []
    | .IPv6, true => .IPV6UP []
  | x => addrsReceived x

/-- The collection is of the family of the session: only such collections are put into the body of an UPDATE. -/
def InSession (p : BgpSessionParams) (x : BgpAddrs) : Prop := (kindOf x).map Prod.fst = some (sessionFamily p)

instance (p : BgpSessionParams) (x : BgpAddrs) : Decidable (InSession p x) :=
  inferInstanceAs (Decidable (_ = _))

/-- The encoder, in some buffer, writes exactly the octets `w`. -/
def Emits (enc : Enc) (w : Bytes) : Prop :=
  ∃ buf, w.length ≤ buf.length ∧ enc buf = .ok (w ++ buf.drop w.length, w.length)

/-- The octets of a section: what the encoder of the collection writes, nothing for collections of other families. -/
def SectionEmits (p : BgpSessionParams) (x : BgpAddrs) (w : Bytes) : Prop :=
  if InSession p x then Emits (x.encodeTo p) w else w = []

/-- The octets of the attributes, one by one. -/
def AttrsEmit (p : BgpSessionParams) (l : List BgpAttrItem) (ws : List Bytes) : Prop :=
  ws.length = l.length ∧ ∀ q ∈ l.zip ws, Emits (q.1.encodeTo p) q.2

/-- The octets of the attributes of a message. -/
def attrsWire (p : BgpSessionParams) (l : List BgpAttrItem) : Bytes := l.flatMap (attrWire p.hasAs32bit)

/-- The octets of an UPDATE. -/
def updateWire (p : BgpSessionParams) (x : BgpUpdateMessage) : Bytes :=
  updateBytes (addrsWire x.withdraws) (attrsWire p x.attrs) (addrsWire x.updates)

/-- Every part of the message can be put on the wire and recovered on its own. -/
def PartsOk (p : BgpSessionParams) (x : BgpUpdateMessage) : Prop :=
  SectionOk p x.withdraws ∧ SectionOk p x.updates ∧
    ∀ a ∈ x.attrs, AttrOk p a ∧ (valueWire p.hasAs32bit a).length ≤ maxValue (attrCode a).2

/-- The octets are the beginning of an attribute whose header is cut off so that the message ends before the type code or
the one-octet length. -/
def CutHeader (t : Bytes) : Prop := ∃ flags, t = [flags] ∨ ∃ code, t = [flags, code] ∧ extended flags = false

/-- The accessor gives the first attribute made with `kind`, and nothing if there is none -/
def GivesFirst {α : Type} (get : BgpUpdateMessage → Option α) (kind : α → BgpAttrItem) : Prop :=
  ∀ x : BgpUpdateMessage,
    (∀ n, get x = some n ↔ ∃ pre post, x.attrs = pre ++ kind n :: post ∧ ∀ m, kind m ∉ pre) ∧
    (get x = none ↔ ∀ m, kind m ∉ x.attrs)

end Zbgp.Spec
