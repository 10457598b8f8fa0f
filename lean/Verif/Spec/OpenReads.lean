import Verif.Spec.Message
import Verif.Model.Open
import Verif.Spec.Reads

/-!
# What OPEN and NOTIFICATION messages are read as

Written from RFC 4271 sections 4.2 and 4.5 and the RFCs of the capabilities, following the library where it departs from
them (the comments say so). Only the data types of the model are used, none of its functions.
-/

namespace Zbgp.Spec

open Zbgp

/-! ## UTF-8 -/

/-- RFC 3629: a Unicode scalar value. -/
def Scalar (c : Nat) : Prop := c < 0xD800 ∨ (0xE000 ≤ c ∧ c < 0x110000)

instance (c : Nat) : Decidable (Scalar c) := inferInstanceAs (Decidable (_ ∨ _))

/-- RFC 3629 section 3: the octets of a character. -/
def utf8Char (c : Nat) : Bytes :=
  if c < 0x80 then be 1 c
  else if c < 0x800 then be 1 (0xC0 + c / 2 ^ 6) ++ be 1 (0x80 + c % 2 ^ 6)
  else if c < 0x10000 then be 1 (0xE0 + c / 2 ^ 12) ++ (be 1 (0x80 + c / 2 ^ 6 % 2 ^ 6) ++ be 1 (0x80 + c % 2 ^ 6))
  else be 1 (0xF0 + c / 2 ^ 18) ++ (be 1 (0x80 + c / 2 ^ 12 % 2 ^ 6) ++ (be 1 (0x80 + c / 2 ^ 6 % 2 ^ 6) ++ be 1 (0x80 + c % 2 ^ 6)))

/-- The octets are a text in UTF-8. -/
def Utf8 (b : Bytes) : Prop := ∃ cs : List Nat, (∀ c ∈ cs, Scalar c) ∧ b = cs.flatMap utf8Char

/-! ## Capabilities -/

/-- RFC 4724: AFI, SAFI, flags; only the first bit of the flags has a meaning. -/
def GrEntryRead (b : Bytes) (g : BgpCapGR) : Prop :=
  ∃ f : U8, b = be 2 g.afi.toNat ++ [g.safi, f] ∧ (g.forwardingState = true ↔ 128 ≤ f.toNat)

/-- RFC 7911: AFI, SAFI, send/receive; only the last two bits are looked at. -/
def AddPathEntryRead (b : Bytes) (a : BgpCapAddPath) : Prop :=
  ∃ f : U8, b = be 2 a.afi.toNat ++ [a.safi, f] ∧ (a.receive = true ↔ f.toNat % 2 = 1) ∧ (a.send = true ↔ f.toNat / 2 % 2 = 1)

/-- RFC 9494: AFI, SAFI, flags, 24 bits of stale time. -/
def LlgrEntryRead (b : Bytes) (l : BgpCapLLGR) : Prop := b = llgrEntry l ∧ l.staleTime.toNat < 2 ^ 24

/-- Entries one behind the other, with nothing left. -/
inductive EntriesRead {α : Type} (R : Bytes → α → Prop) : Bytes → List α → Prop
  | done : EntriesRead R [] []
  | entry (b rest : Bytes) (x : α) (xs : List α) (h : R b x) (hr : EntriesRead R rest xs) : EntriesRead R (b ++ rest) (x :: xs)

/-- A capability with the code and value is read as the capability, or ignored (`none`). -/
inductive CapRead : U8 → Bytes → Option BgpCapability → Prop
  /-- multiprotocol, for one of the families the library knows -/
  | mp (data : Bytes) (c : BgpCapability) (h : capValue c = some (1, data)) : CapRead 1 data (some c)
  /-- multiprotocol, for another family -/
  | mpOther (data : Bytes) (hl : data.length = 4) (h : ∀ c, capValue c ≠ some (1, data)) : CapRead 1 data none
  /-- route refresh -/
  | rr : CapRead 2 [] (some .CapRR)
  /-- graceful restart: the first bit is the restart state, the last twelve are the time, the other three are ignored -/
  | gr (w : Nat) (b : Bytes) (afis : List BgpCapGR) (hw : w < 2 ^ 16) (h : EntriesRead GrEntryRead b afis) :
      CapRead 64 (be 2 w ++ b) (some (.CapGR (BitVec.ofNat 16 (w % 2 ^ 12)) (decide (2 ^ 15 ≤ w)) afis))
  /-- four-octet AS numbers -/
  | asn32 (n : U32) : CapRead 65 (be 4 n.toNat) (some (.CapASN32 n))
  /-- AddPath -/
  | addPath (b : Bytes) (v : List BgpCapAddPath) (h : EntriesRead AddPathEntryRead b v) : CapRead 69 b (some (.CapAddPath v))
  /-- enhanced route refresh -/
  | err : CapRead 70 [] (some .CapEnhancedRR)
  /-- long-lived graceful restart -/
  | llgr (b : Bytes) (v : List BgpCapLLGR) (h : EntriesRead LlgrEntryRead b v) : CapRead 71 b (some (.CapLLGR v))
  /-- FQDN: only with an empty domain name (the library refuses all others) -/
  | fqdn (host : Bytes) (hl : host.length ≤ 255) (hu : Utf8 host) : CapRead 73 (fqdnValue host []) (some (.CapFQDN host []))
  /-- BFD -/
  | bfd : CapRead 74 [] (some .CapBFD)
  /-- other codes -/
  | other (code : U8) (data : Bytes) (h : code.toNat ∉ knownCodes) : CapRead code data none

/-- Capabilities one behind the other, with nothing left; those that are ignored do not appear. -/
inductive CapsRead : Bytes → List BgpCapability → Prop
  | done : CapsRead [] []
  | cap (code : U8) (data rest : Bytes) (o : Option BgpCapability) (l : List BgpCapability) (hl : data.length ≤ 255)
      (h : CapRead code data o) (hr : CapsRead rest l) : CapsRead (tlv code.toNat data ++ rest) (o.toList ++ l)

/-! ## OPEN -/

/-- Optional parameters with capabilities (type 2) one behind the other; a single octet at the end is ignored. -/
inductive ParamsRead : Bytes → List BgpCapability → Prop
  | done (b : Bytes) (h : b.length ≤ 1) : ParamsRead b []
  | param (body rest : Bytes) (l l' : List BgpCapability) (hl : body.length ≤ 255) (h : CapsRead body l)
      (hr : ParamsRead rest l') : ParamsRead (capParam body ++ rest) (l ++ l')

/-- The body of an OPEN message is read as `m`: version 4, AS number, hold time, router id, an octet that is not looked at
(the length of the optional parameters: the library reads parameters up to the end of the message) and the parameters. -/
def OpenRead (b : Bytes) (m : BgpOpenMessage) : Prop :=
  ∃ (as : U16) (len : U8) (params : Bytes),
    b = be 1 4 ++ (be 2 as.toNat ++ (be 2 m.holdTime.toNat ++ (be 4 m.routerId.toNat ++ (len :: params)))) ∧
    m.asNum.toNat = as.toNat ∧ ParamsRead params m.caps

/-! ## NOTIFICATION -/

/-- The body of a NOTIFICATION message is read as `m` into an object that had the data `old`: without data in the message
these stay as they are; of the data in the message the first two octets are taken. -/
def NotificationRead (old : U16) (b : Bytes) (m : BgpNotificationMessage) : Prop :=
  (b = [m.errorCode, m.errorSubcode] ∧ m.data = old) ∨
  (∃ x : U8, b = [m.errorCode, m.errorSubcode, x] ∧ m.data.toNat = x.toNat) ∨
  (∃ rest : Bytes, b = [m.errorCode, m.errorSubcode] ++ (be 2 m.data.toNat ++ rest))

end Zbgp.Spec
