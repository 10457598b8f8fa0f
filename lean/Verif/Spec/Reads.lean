import Verif.Spec.Addrs

/-!
# What octets NLRI decoders accept, and what they crash on

For every kind of NLRI: which octets are read, as what, and how many of them are taken (`…Read`), and which octets bring
the program down (`…Crash`). All other octets are refused with an error. Where the library departs from the RFCs, these
definitions follow the library and the comment says so. Only the data types of the model are used, none of its functions.
-/

namespace Zbgp.Spec

open Zbgp

/-- A call yields exactly the values in `R`, crashes exactly if `C` holds, never runs forever, and so returns an error in
all other cases. -/
structure Exactly {α : Type} (r : Res α) (R : α → Prop) (C : Prop) : Prop where
  ok : ∀ x, r = .ok x ↔ R x
  crash : r = .panic ↔ C
  noHang : r ≠ .hang

/-! ## Lists of items -/

/-- Items are read one behind the other while more than `lim` octets are left: the items, and the number of octets taken.
`R b x n` says that the octets `b` begin with the item `x`, which takes `n` of them. -/
inductive ItemsRead {α : Type} (lim : Nat) (R : Bytes → α → Nat → Prop) : Bytes → List α → Nat → Prop
  | done (b : Bytes) (h : b.length ≤ lim) : ItemsRead lim R b [] 0
  | item (b : Bytes) (x : α) (n : Nat) (xs : List α) (m : Nat) (h : lim < b.length) (hx : R b x n)
      (hr : ItemsRead lim R (b.drop n) xs m) : ItemsRead lim R b (x :: xs) (n + m)

/-- Behind some items that can be read there is one that crashes the decoder. -/
inductive ItemsCrash {α : Type} (lim : Nat) (R : Bytes → α → Nat → Prop) (C : Bytes → Prop) : Bytes → Prop
  | here (b : Bytes) (h : lim < b.length) (hc : C b) : ItemsCrash lim R C b
  | later (b : Bytes) (x : α) (n : Nat) (h : lim < b.length) (hx : R b x n) (hr : ItemsCrash lim R C (b.drop n)) :
      ItemsCrash lim R C b

/-! ## Label stacks -/

/-- The 24-bit label entry `v` ends the stack: bottom-of-stack bit, or one of the label values that end a stack. -/
def EndsStack (v : Nat) : Prop := v % 2 = 1 ∨ v / 16 ∈ stackEnding

instance (v : Nat) : Decidable (EndsStack v) := inferInstanceAs (Decidable (_ ∨ _))

/-- Label entries are read until one ends the stack or exactly the announced bits are used up: the announced bits, the
octets, the labels and the number of octets taken. -/
inductive LabelsRead : Nat → Bytes → List U32 → Nat → Prop
  | done (b : Bytes) : LabelsRead 0 b [] 0
  | last (bits v : Nat) (b : Bytes) (hv : v < 2 ^ 24) (hb : 24 ≤ bits) (he : EndsStack v) :
      LabelsRead bits (be 3 v ++ b) [BitVec.ofNat 32 (v / 16)] 3
  | more (bits v : Nat) (b : Bytes) (ls : List U32) (n : Nat) (hv : v < 2 ^ 24) (he : ¬ EndsStack v)
      (hr : LabelsRead bits b ls n) :
      LabelsRead (bits + 24) (be 3 v ++ b) (BitVec.ofNat 32 (v / 16) :: ls) (3 + n)

/-- Where a further entry should be, fewer than 24 but some announced bits, or fewer than three octets, are left. -/
inductive LabelsCrash : Nat → Bytes → Prop
  | short (bits : Nat) (b : Bytes) (h0 : 0 < bits) (h : bits < 24 ∨ b.length < 3) : LabelsCrash bits b
  | more (bits v : Nat) (b : Bytes) (hv : v < 2 ^ 24) (he : ¬ EndsStack v) (hr : LabelsCrash bits b) :
      LabelsCrash (bits + 24) (be 3 v ++ b)

/-! ## Prefixes -/

/-- How items that are prefixes with a length in bits are read: the announced bits and the octets behind the length
octet. -/
class PrefixReads (T : Type) where
  Read : Nat → Bytes → T → Nat → Prop
  Crash : Nat → Bytes → Prop

/-- The first octets of an address of `w` octets are `b`, all others are zero. -/
def PaddedOctets (w addr : Nat) (b : Bytes) : Prop := be w addr = b ++ List.replicate (w - b.length) 0

/-- At most 32 bits, and all octets are there. Lengths from 249 on crash the decoder. -/
instance : PrefixReads BgpAddrV4 where
  Read bits b x n := bits ≤ 32 ∧ n = octets bits ∧ n ≤ b.length ∧ x.prefixlen.toNat = bits ∧
    PaddedOctets 4 x.addr.toNat (b.take n)
  Crash bits _ := 249 ≤ bits

instance : PrefixReads BgpAddrV6 where
  Read bits b x n := bits ≤ 128 ∧ n = octets bits ∧ n ≤ b.length ∧ x.prefixlen.toNat = bits ∧
    PaddedOctets 16 x.addr.toNat (b.take n)
  Crash bits _ := 249 ≤ bits

/-- A prefix and a group address; the length counts both. Prefixes longer than 32 bits, up to 96, and cut-off prefixes
crash the decoder. -/
instance : PrefixReads BgpMdtV4 where
  Read bits b x n := ∃ m g, 32 ≤ bits ∧ PrefixReads.Read (bits - 32) b x.addr m ∧
    b.drop m = be 4 x.group.toNat ++ g ∧ n = m + 4
  Crash bits b := (64 < bits ∧ bits ≤ 128) ∨ (32 ≤ bits ∧ bits ≤ 64 ∧ b.length < octets (bits - 32))

/-- The same for IPv6, where lengths of the prefix up to 126 bits are accepted. -/
instance : PrefixReads BgpMdtV6 where
  Read bits b x n := ∃ m g, 128 ≤ bits ∧ bits ≤ 254 ∧ PrefixReads.Read (bits - 128) b x.addr m ∧
    b.drop m = be 16 x.group.toNat ++ g ∧ n = m + 16
  Crash bits b := 128 ≤ bits ∧ bits ≤ 254 ∧ b.length < octets (bits - 128)

/-- Labels, then the prefix with the bits that are left. -/
instance {T : Type} [PrefixReads T] : PrefixReads (Labeled T) where
  Read bits b x n := ∃ k m, LabelsRead bits b x.labels.labels k ∧ PrefixReads.Read (bits - 8 * k) (b.drop k) x.pfx m ∧
    n = k + m
  Crash bits b := LabelsCrash bits b ∨
    ∃ ls k, LabelsRead bits b ls k ∧ PrefixReads.Crash T (bits - 8 * k) (b.drop k)

/-- A route distinguisher of 64 bits, then the prefix with the bits that are left. With a length below 64 the decoder
crashes if there are eight octets, and refuses the item if not. -/
instance {T : Type} [PrefixReads T] : PrefixReads (WithRd T) where
  Read bits b x n := ∃ t m, 64 ≤ bits ∧ b = rdBody x.rd ++ t ∧ PrefixReads.Read (bits - 64) t x.pfx m ∧ n = 8 + m
  Crash bits b := 8 ≤ b.length ∧ (bits < 64 ∨ PrefixReads.Crash T (bits - 64) (b.drop 8))

/-- The kinds of NLRI that are prefixes with a length in bits, as in `PrefixKind`. -/
inductive PrefixReadsKind : (T : Type) → [BgpItem T] → [PrefixReads T] → Prop
  | v4 : PrefixReadsKind BgpAddrV4
  | v6 : PrefixReadsKind BgpAddrV6
  | mdt4 : PrefixReadsKind BgpMdtV4
  | mdt6 : PrefixReadsKind BgpMdtV6
  | labeled {T : Type} [BgpItem T] [PrefixReads T] : PrefixReadsKind T → PrefixReadsKind (Labeled T)
  | withRd {T : Type} [BgpItem T] [PrefixReads T] : PrefixReadsKind T → PrefixReadsKind (WithRd T)

section prefixes
variable {T : Type} [PrefixReads T]

/-- A length octet and the prefix. -/
def NlriRead (b : Bytes) (x : T) (n : Nat) : Prop :=
  ∃ bits t m, b = bits :: t ∧ PrefixReads.Read bits.toNat t x m ∧ n = m + 1

variable (T) in
def NlriCrash (b : Bytes) : Prop := b = [] ∨ ∃ bits t, b = bits :: t ∧ PrefixReads.Crash T bits.toNat t

/-- A path identifier, a length octet and the prefix. -/
def PathIdRead (b : Bytes) (x : WithPathId T) (n : Nat) : Prop :=
  ∃ t m, b = be 4 x.pathid.toNat ++ t ∧ NlriRead t x.nlri m ∧ n = 4 + m

variable (T) in
def PathIdCrash (b : Bytes) : Prop := b.length < 4 ∨ NlriCrash T (b.drop 4)

end prefixes

/-! ## VPLS -/

/-- The bits announced to the label reader: those of the octets that are left, but only the lowest eight bits of that
number are kept. -/
def leftBits (b : Bytes) : Nat := 8 * b.length % 256

/-- A length of two octets, RD, VE ID, block offset, block size and labels. -/
def VplsRead (b : Bytes) (x : BgpAddrL2) (n : Nat) : Prop :=
  ∃ body lab t k, b = be 2 body.length ++ body ++ t ∧ body.length < 65536 ∧ 17 ≤ body.length ∧
    body = rdBody x.rd ++ be 2 x.site.toNat ++ be 2 x.offset.toNat ++ be 2 x.range.toNat ++ lab ∧
    LabelsRead (leftBits lab) lab x.labels.labels k ∧ n = body.length + 2

/-- The length or the item is cut off, or the labels crash the decoder. -/
def VplsCrash (b : Bytes) : Prop :=
  b.length < 2 ∨ ∃ l t, l < 65536 ∧ b = be 2 l ++ t ∧
    (t.length < l ∨ (17 ≤ l ∧ LabelsCrash (leftBits ((t.take l).drop 14)) ((t.take l).drop 14)))

/-! ## EVPN -/

/-- What is read from the body of a route of each type. Types 3 and 4 may be followed by more octets. Type 5 routes of 58
octets, the size of those for IPv6, are read as IPv4 addresses at the places of the first octets of the addresses. -/
inductive EvpnRead : Bytes → BgpEVPN → Nat → Prop
  | t1 (rd : BgpRD) (et : U8) (esi : EVPNESI) (tag : U32) (ls : List U32) (lab : Bytes) (k : Nat)
      (h : LabelsRead (leftBits lab) lab ls k) :
      EvpnRead (rdBody rd ++ esiBody et esi ++ be 4 tag.toNat ++ lab) (.evpn1 ⟨rd, et, esi, tag, ⟨ls⟩⟩) (22 + k)
  | t2 (rd : BgpRD) (et : U8) (esi : EVPNESI) (tag : U32) (mac : MacAddress) (ip : Option IpAddr) (ls : List U32)
      (lab : Bytes) (k : Nat) (h : LabelsRead (leftBits lab) lab ls k) :
      EvpnRead (rdBody rd ++ esiBody et esi ++ be 4 tag.toNat ++ [48] ++ macBody mac ++
          (match ip with | none => [0] | some a => lenIpBody a) ++ lab)
        (.evpn2 ⟨rd, et, esi, tag, mac, ip, ⟨ls⟩⟩)
        (29 + (match ip with | none => [0] | some a => lenIpBody a).length + k)
  | t3 (rd : BgpRD) (tag : U32) (ip : IpAddr) (t : Bytes) :
      EvpnRead (rdBody rd ++ be 4 tag.toNat ++ lenIpBody ip ++ t) (.evpn3 ⟨rd, tag, ip⟩) (12 + (lenIpBody ip).length)
  | t4 (rd : BgpRD) (et : U8) (esi : EVPNESI) (ip : IpAddr) (t : Bytes) :
      EvpnRead (rdBody rd ++ esiBody et esi ++ lenIpBody ip ++ t) (.evpn4 ⟨rd, et, esi, ip⟩)
        (18 + (lenIpBody ip).length)
  | t5 (rd : BgpRD) (et : U8) (esi : EVPNESI) (tag : U32) (len : U8) (p g : IPv4) (ls : List U32) (lab : Bytes) (k : Nat)
      (hl : lab.length = 3) (h : LabelsRead 24 lab ls k) :
      EvpnRead (rdBody rd ++ esiBody et esi ++ be 4 tag.toNat ++ [len] ++ be 4 p.toNat ++ be 4 g.toNat ++ lab)
        (.evpn5 ⟨rd, et, esi, tag, len, .v4 p, .v4 g, ⟨ls⟩⟩) (31 + k)
  | t5v6 (rd : BgpRD) (et : U8) (esi : EVPNESI) (tag : U32) (len : U8) (p g : IPv4) (q r : Bytes) (ls : List U32)
      (lab : Bytes) (k : Nat) (hq : q.length = 12) (hr : r.length = 12) (hl : lab.length = 3)
      (h : LabelsRead 24 lab ls k) :
      EvpnRead (rdBody rd ++ esiBody et esi ++ be 4 tag.toNat ++ [len] ++ be 4 p.toNat ++ q ++ be 4 g.toNat ++ r ++ lab)
        (.evpn5 ⟨rd, et, esi, tag, len, .v4 p, .v4 g, ⟨ls⟩⟩) (55 + k)

/-- What crashes the decoder of each type: the route ends behind its route distinguisher but before its fixed part is
complete, or the labels crash it. -/
inductive EvpnCrash : U8 → Bytes → Prop
  | t1 (b : Bytes) (h8 : 8 ≤ b.length) (h : b.length < 22) : EvpnCrash 1 b
  | t1labels (b : Bytes) (h : 22 ≤ b.length) (hl : LabelsCrash (leftBits (b.drop 22)) (b.drop 22)) : EvpnCrash 1 b
  | t2 (b : Bytes) (h8 : 8 ≤ b.length) (h : b.length < 23) : EvpnCrash 2 b
  | t2mac (b : Bytes) (h : b.length < 30) (h48 : b[22]? = some 48) : EvpnCrash 2 b
  | t2labels (b : Bytes) (l : U8) (k : Nat) (h48 : b[22]? = some 48) (hl : b[29]? = some l)
      (hk : (l = 0 ∧ k = 0) ∨ (l = 32 ∧ k = 4) ∨ (l = 128 ∧ k = 16)) (h : 30 + k ≤ b.length)
      (hc : LabelsCrash (leftBits (b.drop (30 + k))) (b.drop (30 + k))) : EvpnCrash 2 b
  | t3 (b : Bytes) (h8 : 8 ≤ b.length) (h : b.length < 13) : EvpnCrash 3 b
  | t4 (b : Bytes) (h8 : 8 ≤ b.length) (h : b.length < 19) : EvpnCrash 4 b
  | t5 (b : Bytes) (h8 : 8 ≤ b.length) (h : b.length < 23) : EvpnCrash 5 b

/-- Type, length in octets, and a body of that length. -/
def EvpnItemRead (b : Bytes) (x : BgpEVPN) (n : Nat) : Prop :=
  ∃ l body t k, b = evpnType x :: l :: body ++ t ∧ body.length = l.toNat ∧ EvpnRead body x k ∧ n = k + 2

/-- The two octets in front are not there, or the body crashes the decoder. -/
def EvpnItemCrash (b : Bytes) : Prop :=
  b.length < 2 ∨ ∃ ty l body t, b = ty :: l :: body ++ t ∧ body.length = l.toNat ∧ EvpnCrash ty body

/-! ## MVPN -/

/-- What is read from the body of a route of each type, in a session of the given address family. Types 1, 2, 3, 5, 6 and 7
may be followed by more octets. Type 4 must carry a type 3 route with the length octet 22, also for IPv6, and nothing
behind its originator, but the number of octets taken is that of an IPv4 route. Type 5 is read for IPv4 only. -/
inductive MvpnRead (mode : BgpTransportMode) : Bytes → BgpMVPN → Nat → Prop
  | plain (x : BgpMVPN) (t : Bytes) (h4 : mvpnType x ≠ 4) (hw : MvpnWF mode x) (h5 : mvpnType x = 5 → mode = .IPv4) :
      MvpnRead mode (mvpnBody x ++ t) x (mvpnBody x).length
  | leaf (s : BgpMVPN3) (o : IpAddr) (hw : MvpnWF mode (.t3 s)) :
      MvpnRead mode ([3, 22] ++ mvpn3Body s ++ ipBody o) (.t4 ⟨s, o⟩) ((mvpn3Body s).length + 6)

/-- Type, length in octets, and a body of that length. -/
def MvpnItemRead (mode : BgpTransportMode) (b : Bytes) (x : BgpMVPN) (n : Nat) : Prop :=
  ∃ l body t k, b = mvpnType x :: l :: body ++ t ∧ body.length = l.toNat ∧ MvpnRead mode body x k ∧ n = k + 2

/-- The two octets in front are not there, the body of a route of a known type is cut off, or a type 4 route is empty or
ends behind the type of the route it carries. -/
def MvpnItemCrash (b : Bytes) : Prop :=
  b.length < 2 ∨ ∃ ty l t, b = ty :: l :: t ∧ 1 ≤ ty.toNat ∧ ty.toNat ≤ 7 ∧
    (t.length < l.toNat ∨ (ty = 4 ∧ (l = 0 ∨ (l = 1 ∧ t.head? = some 3))))

/-! ## FlowSpec -/

/-- How the prefix of a destination or source component is read. -/
class FsPrefixReads (T : Type) where
  Read : Bytes → T → Nat → Prop
  Crash : Bytes → Prop

/-- Length in bits, octets. -/
instance : FsPrefixReads BgpAddrV4 where
  Read b x n := NlriRead b x n
  Crash b := NlriCrash BgpAddrV4 b

/-- Length in bits, offset, octets. -/
instance : FsPrefixReads FS6 where
  Read b x n := ∃ bits t m, b = bits :: x.offset :: t ∧ PrefixReads.Read bits.toNat t x.ipv6 m ∧ n = m + 2
  Crash b := b.length < 2 ∨ ∃ bits t, b = bits :: t ∧ 249 ≤ bits.toNat

/-- Length in bits, route distinguisher, octets. -/
instance : FsPrefixReads FSV4U where
  Read b x n := NlriRead b x.pfx n
  Crash b := b = [] ∨ ∃ bits t, b = bits :: t ∧ 8 ≤ t.length ∧ bits.toNat < 64

/-- The kinds of addresses in FlowSpec NLRI. -/
inductive FsReadsKind : (T : Type) → [FSItem T] → [FsPrefixReads T] → Prop
  | v4 : FsReadsKind BgpAddrV4
  | v6 : FsReadsKind FS6
  | vpn4 : FsReadsKind FSV4U

/-- What the bits of an operator octet say, RFC 8955 4.2.1. -/
class FsOpReads (I : Type) where
  Flags : Nat → I → Prop
  value : I → Nat

instance : FsOpReads FSOperValItem where
  Flags op x := x.andBit = op.testBit 6 ∧ x.ltCmp = op.testBit 2 ∧ x.gtCmp = op.testBit 1 ∧ x.eqCmp = op.testBit 0
  value x := x.value.toNat

instance : FsOpReads FSOperMaskItem where
  Flags op x := x.andBit = op.testBit 6 ∧ x.bitNot = op.testBit 1 ∧ x.bitMatch = op.testBit 0
  value x := x.value.toNat

/-- The length code of an operator octet. -/
def opCode (op : U8) : Nat := op.toNat / 16 % 4

/-- An operator and a value of one, two or four octets. -/
def FsOpRead {I : Type} [FsOpReads I] (b : Bytes) (x : I) (n : Nat) : Prop :=
  ∃ op t, opCode op ≤ 2 ∧ FsOpReads.Flags op.toNat x ∧ FsOpReads.value x < 256 ^ 2 ^ opCode op ∧
    b = op :: be (2 ^ opCode op) (FsOpReads.value x) ++ t ∧ n = 1 + 2 ^ opCode op

/-- The operator or its value is cut off. -/
def FsOpCrash (b : Bytes) : Prop :=
  b = [] ∨ ∃ op t, b = op :: t ∧ opCode op ≤ 2 ∧ t.length < 2 ^ opCode op

/-- A list of operators takes the whole component; the end-of-list bit is ignored. -/
def FsOpsRead {I : Type} [FsOpReads I] (b : Bytes) (v : FSOperVec I) : Prop :=
  ∃ n, ItemsRead 0 FsOpRead b v.items n

def FsOpsCrash (I : Type) [FsOpReads I] (b : Bytes) : Prop :=
  ItemsCrash 0 (FsOpRead (I := I)) FsOpCrash b

section component
variable {T : Type} [FsPrefixReads T]

/-- The component type, the octets behind it, what they say, and the number of octets taken. For prefixes that is one more
than there are in the prefix. -/
inductive FsComponentRead : U8 → Bytes → BgpFlowSpec T → Nat → Prop
  | prefixDst (b : Bytes) (a : T) (n : Nat) (h : FsPrefixReads.Read b a n) : FsComponentRead 1 b (.prefixDst a) (n + 2)
  | prefixSrc (b : Bytes) (a : T) (n : Nat) (h : FsPrefixReads.Read b a n) : FsComponentRead 2 b (.prefixSrc a) (n + 2)
  | proto (b : Bytes) (v) (h : FsOpsRead b v) : FsComponentRead 3 b (.proto v) (b.length + 1)
  | portAny (b : Bytes) (v) (h : FsOpsRead b v) : FsComponentRead 4 b (.portAny v) (b.length + 1)
  | portDst (b : Bytes) (v) (h : FsOpsRead b v) : FsComponentRead 5 b (.portDst v) (b.length + 1)
  | portSrc (b : Bytes) (v) (h : FsOpsRead b v) : FsComponentRead 6 b (.portSrc v) (b.length + 1)
  | icmpType (b : Bytes) (v) (h : FsOpsRead b v) : FsComponentRead 7 b (.icmpType v) (b.length + 1)
  | icmpCode (b : Bytes) (v) (h : FsOpsRead b v) : FsComponentRead 8 b (.icmpCode v) (b.length + 1)
  | tcpFlags (b : Bytes) (v) (h : FsOpsRead b v) : FsComponentRead 9 b (.tcpFlags v) (b.length + 1)
  | packetLength (b : Bytes) (v) (h : FsOpsRead b v) : FsComponentRead 10 b (.packetLength v) (b.length + 1)
  | dscp (b : Bytes) (v) (h : FsOpsRead b v) : FsComponentRead 11 b (.dscp v) (b.length + 1)
  | fragment (b : Bytes) (v) (h : FsOpsRead b v) : FsComponentRead 12 b (.fragment v) (b.length + 1)
  | flowLabel (b : Bytes) (v) (h : FsOpsRead b v) : FsComponentRead 13 b (.flowLabel v) (b.length + 1)

variable (T) in
/-- The octets behind the component type crash the decoder. -/
def FsComponentCrash (code : U8) (b : Bytes) : Prop :=
  if code = 1 ∨ code = 2 then FsPrefixReads.Crash T b
  else if code = 9 ∨ code = 12 then FsOpsCrash FSOperMaskItem b
  else FsOpsCrash FSOperValItem b

/-- The length octets of a FlowSpec NLRI and the length they stand for. -/
inductive FsLength : Bytes → Nat → Prop
  | one (b : U8) (h : b.toNat < 240) : FsLength [b] b.toNat
  | two (b c : U8) (h : 240 ≤ b.toNat) : FsLength [b, c] (b.toNat % 16 * 256 + c.toNat)

/-- Length, component type and component; only the first component is read, and the NLRI is taken to end where the
component does. -/
def FsItemRead (b : Bytes) (x : BgpFlowSpec T) (n : Nat) : Prop :=
  ∃ pre l code body t k, FsLength pre l ∧ b = pre ++ code :: body ++ t ∧ body.length + 1 = l ∧
    FsComponentRead code body x k ∧ n = pre.length + k

variable (T) in
/-- The length octets or the component type are not there; or the component type is known, and the length is zero, the
component is cut off or crashes the decoder. -/
def FsItemCrash (b : Bytes) : Prop :=
  b = [] ∨ (∃ c : U8, b = [c] ∧ 240 ≤ c.toNat) ∨ ∃ pre l t, FsLength pre l ∧ b = pre ++ t ∧
    (t = [] ∨ ∃ code body, t = code :: body ∧ 1 ≤ code.toNat ∧ code.toNat ≤ 13 ∧
      (l = 0 ∨ body.length + 1 < l ∨ FsComponentCrash T code (body.take (l - 1))))

end component

/-! ## All families -/

/-- How the NLRI field of each family is read in a session: AddPath items or plain ones, depending on the session, for the
families that have both forms. -/
inductive AddrsRead (p : BgpSessionParams) : Family → Bytes → BgpAddrs → Nat → Prop
  | ipv4Unicast (b v n) (ha : AddPathExpected p (1, 1) b = false) (h : ItemsRead 0 NlriRead b v n) :
      AddrsRead p .ipv4Unicast b (.IPV4U v) n
  | ipv4UnicastP (b v n) (ha : AddPathExpected p (1, 1) b = true) (h : ItemsRead 4 PathIdRead b v n) :
      AddrsRead p .ipv4Unicast b (.IPV4UP v) n
  | ipv4Multicast (b v n) (ha : AddPathExpected p (1, 2) b = false) (h : ItemsRead 0 NlriRead b v n) :
      AddrsRead p .ipv4Multicast b (.IPV4M v) n
  | ipv4MulticastP (b v n) (ha : AddPathExpected p (1, 2) b = true) (h : ItemsRead 4 PathIdRead b v n) :
      AddrsRead p .ipv4Multicast b (.IPV4MP v) n
  | ipv4Labeled (b v n) (ha : AddPathExpected p (1, 4) b = false) (h : ItemsRead 0 NlriRead b v n) :
      AddrsRead p .ipv4Labeled b (.IPV4LU v) n
  | ipv4LabeledP (b v n) (ha : AddPathExpected p (1, 4) b = true) (h : ItemsRead 4 PathIdRead b v n) :
      AddrsRead p .ipv4Labeled b (.IPV4LUP v) n
  | ipv4Mvpn (b v n) (h : ItemsRead 0 (MvpnItemRead .IPv4) b v n) : AddrsRead p .ipv4Mvpn b (.MVPN v) n
  | ipv4Mdt (b v n) (ha : AddPathExpected p (1, 66) b = false) (h : ItemsRead 0 NlriRead b v n) :
      AddrsRead p .ipv4Mdt b (.IPV4MDT v) n
  | ipv4MdtP (b v n) (ha : AddPathExpected p (1, 66) b = true) (h : ItemsRead 4 PathIdRead b v n) :
      AddrsRead p .ipv4Mdt b (.IPV4MDTP v) n
  | ipv4Vpn (b v n) (ha : AddPathExpected p (1, 128) b = false) (h : ItemsRead 0 NlriRead b v n) :
      AddrsRead p .ipv4Vpn b (.VPNV4U v) n
  | ipv4VpnP (b v n) (ha : AddPathExpected p (1, 128) b = true) (h : ItemsRead 4 PathIdRead b v n) :
      AddrsRead p .ipv4Vpn b (.VPNV4UP v) n
  | ipv4VpnMulticast (b v n) (ha : AddPathExpected p (1, 129) b = false) (h : ItemsRead 0 NlriRead b v n) :
      AddrsRead p .ipv4VpnMulticast b (.VPNV4M v) n
  | ipv4VpnMulticastP (b v n) (ha : AddPathExpected p (1, 129) b = true) (h : ItemsRead 4 PathIdRead b v n) :
      AddrsRead p .ipv4VpnMulticast b (.VPNV4MP v) n
  | ipv4FlowSpec (b v n) (h : ItemsRead 0 FsItemRead b v n) : AddrsRead p .ipv4FlowSpec b (.FS4U v) n
  | ipv4VpnFlowSpec (b v n) (h : ItemsRead 0 FsItemRead b v n) : AddrsRead p .ipv4VpnFlowSpec b (.FSV4U v) n
  | ipv6Unicast (b v n) (ha : AddPathExpected p (2, 1) b = false) (h : ItemsRead 0 NlriRead b v n) :
      AddrsRead p .ipv6Unicast b (.IPV6U v) n
  | ipv6UnicastP (b v n) (ha : AddPathExpected p (2, 1) b = true) (h : ItemsRead 4 PathIdRead b v n) :
      AddrsRead p .ipv6Unicast b (.IPV6UP v) n
  | ipv6Multicast (b v n) (ha : AddPathExpected p (2, 2) b = false) (h : ItemsRead 0 NlriRead b v n) :
      AddrsRead p .ipv6Multicast b (.IPV6M v) n
  | ipv6MulticastP (b v n) (ha : AddPathExpected p (2, 2) b = true) (h : ItemsRead 4 PathIdRead b v n) :
      AddrsRead p .ipv6Multicast b (.IPV6MP v) n
  | ipv6Labeled (b v n) (ha : AddPathExpected p (2, 4) b = false) (h : ItemsRead 0 NlriRead b v n) :
      AddrsRead p .ipv6Labeled b (.IPV6LU v) n
  | ipv6LabeledP (b v n) (ha : AddPathExpected p (2, 4) b = true) (h : ItemsRead 4 PathIdRead b v n) :
      AddrsRead p .ipv6Labeled b (.IPV6LUP v) n
  | ipv6Mdt (b v n) (ha : AddPathExpected p (2, 66) b = false) (h : ItemsRead 0 NlriRead b v n) :
      AddrsRead p .ipv6Mdt b (.IPV6MDT v) n
  | ipv6MdtP (b v n) (ha : AddPathExpected p (2, 66) b = true) (h : ItemsRead 4 PathIdRead b v n) :
      AddrsRead p .ipv6Mdt b (.IPV6MDTP v) n
  | ipv6Vpn (b v n) (ha : AddPathExpected p (2, 128) b = false) (h : ItemsRead 0 NlriRead b v n) :
      AddrsRead p .ipv6Vpn b (.VPNV6U v) n
  | ipv6VpnP (b v n) (ha : AddPathExpected p (2, 128) b = true) (h : ItemsRead 4 PathIdRead b v n) :
      AddrsRead p .ipv6Vpn b (.VPNV6UP v) n
  | ipv6VpnMulticast (b v n) (ha : AddPathExpected p (2, 129) b = false) (h : ItemsRead 0 NlriRead b v n) :
      AddrsRead p .ipv6VpnMulticast b (.VPNV6M v) n
  | ipv6VpnMulticastP (b v n) (ha : AddPathExpected p (2, 129) b = true) (h : ItemsRead 4 PathIdRead b v n) :
      AddrsRead p .ipv6VpnMulticast b (.VPNV6MP v) n
  | ipv6FlowSpec (b v n) (h : ItemsRead 0 FsItemRead b v n) : AddrsRead p .ipv6FlowSpec b (.FS6U v) n
  | l2Vpls (b v n) (h : ItemsRead 0 VplsRead b v n) : AddrsRead p .l2Vpls b (.L2VPLS v) n
  | l2Evpn (b v n) (h : ItemsRead 0 EvpnItemRead b v n) : AddrsRead p .l2Evpn b (.EVPN v) n

/-- The NLRI field of prefixes of one kind crashes the decoder: one of its items does, AddPath items or plain ones. -/
def PrefixFieldCrash (T : Type) [PrefixReads T] (p : BgpSessionParams) (f : Family) (b : Bytes) : Prop :=
  if AddPathExpected p (familyCode f) b then ItemsCrash 4 (PathIdRead (T := T)) (PathIdCrash T) b
  else ItemsCrash 0 (NlriRead (T := T)) (NlriCrash T) b

/-- The NLRI fields that crash the decoder, by family. -/
def AddrsCrash (p : BgpSessionParams) : Family → Bytes → Prop
  | .ipv4Unicast => PrefixFieldCrash BgpAddrV4 p .ipv4Unicast
  | .ipv4Multicast => PrefixFieldCrash BgpAddrV4 p .ipv4Multicast
  | .ipv4Labeled => PrefixFieldCrash (Labeled BgpAddrV4) p .ipv4Labeled
  | .ipv4Mvpn => ItemsCrash 0 (MvpnItemRead .IPv4) MvpnItemCrash
  | .ipv4Mdt => PrefixFieldCrash (WithRd BgpMdtV4) p .ipv4Mdt
  | .ipv4Vpn => PrefixFieldCrash (Labeled (WithRd BgpAddrV4)) p .ipv4Vpn
  | .ipv4VpnMulticast => PrefixFieldCrash (Labeled (WithRd BgpAddrV4)) p .ipv4VpnMulticast
  | .ipv4FlowSpec => ItemsCrash 0 (FsItemRead (T := BgpAddrV4)) (FsItemCrash BgpAddrV4)
  | .ipv4VpnFlowSpec => ItemsCrash 0 (FsItemRead (T := FSV4U)) (FsItemCrash FSV4U)
  | .ipv6Unicast => PrefixFieldCrash BgpAddrV6 p .ipv6Unicast
  | .ipv6Multicast => PrefixFieldCrash BgpAddrV6 p .ipv6Multicast
  | .ipv6Labeled => PrefixFieldCrash (Labeled BgpAddrV6) p .ipv6Labeled
  | .ipv6Mdt => PrefixFieldCrash (WithRd BgpMdtV6) p .ipv6Mdt
  | .ipv6Vpn => PrefixFieldCrash (Labeled (WithRd BgpAddrV6)) p .ipv6Vpn
  | .ipv6VpnMulticast => PrefixFieldCrash (Labeled (WithRd BgpAddrV6)) p .ipv6VpnMulticast
  | .ipv6FlowSpec => ItemsCrash 0 (FsItemRead (T := FS6)) (FsItemCrash FS6)
  | .l2Vpls => ItemsCrash 0 VplsRead VplsCrash
  | .l2Evpn => ItemsCrash 0 EvpnItemRead EvpnItemCrash

end Zbgp.Spec
