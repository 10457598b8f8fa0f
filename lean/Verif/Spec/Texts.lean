import Verif.Spec.OpenReads
import Verif.Model.Bmp
import Verif.Model.Dumper

/-!
# Strings are texts

A Rust `String` always holds valid UTF-8. The model has the octets; here is said that they are UTF-8.
-/

namespace Zbgp.Spec

open Zbgp

/-- The strings of a capability are texts. -/
def CapTexts : BgpCapability → Prop
  | .CapFQDN host domain => Utf8 host ∧ Utf8 domain
  | _ => True

/-- The strings of an OPEN message are texts. -/
def OpenTexts (m : BgpOpenMessage) : Prop := ∀ c ∈ m.caps, CapTexts c

/-- An optional string is a text. -/
def OptText (s : Option Bytes) : Prop := ∀ b, s = some b → Utf8 b

/-- The strings of a BMP message are texts. -/
def BmpTexts : BmpMessage → Prop
  | .PeerUpNotification m => OpenTexts m.msg1 ∧ OpenTexts m.msg2
  | .Initiation m => OptText m.str0 ∧ OptText m.sysDescr ∧ OptText m.sysName
  | .Termination m => OptText m.str0
  | _ => True

/-- What the example program has to tell on the standard output: the messages, in order. -/
def told : List DumperEvent → List (BgpNotificationMessage ⊕ BgpUpdateMessage)
  | [] => []
  | .notification m :: l => .inl m :: told l
  | .update m :: l => .inr m :: told l
  | _ :: l => told l

end Zbgp.Spec

namespace Zbgp.Spec

open Zbgp

/-- A next hop with a route distinguisher of zero, without it. -/
def withoutZeroRd : BgpAddr → BgpAddr
  | .V4RD ⟨⟨0, 0⟩, a⟩ => .V4 a
  | .V6RD ⟨⟨0, 0⟩, a⟩ => .V6 a
  | x => x

/-- Tunnels that differ at most in the opaque value of an mLDP tunnel. -/
inductive SameTunnel : BgpAttrItem → BgpAttrItem → Prop
  | mldp (flags type : U8) (label : MplsLabels) (root : IpAddr) (opaq opaq' : Bytes) :
      SameTunnel (.PMSITunnel ⟨flags, type, label, .MLDP root opaq⟩) (.PMSITunnel ⟨flags, type, label, .MLDP root opaq'⟩)

end Zbgp.Spec
