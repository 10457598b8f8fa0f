import Verif.Model.Text

/-!
# Serialisation

Models the `serde` implementations of `src/afi/*.rs` and `src/message/attributes/*.rs` (feature `serialization`, on by
default) with a self-describing text format such as JSON. `serde` itself, its derive macros and the format are not part
of the code base: their documented behaviour is modelled here and belongs to the trusted base. Which of several errors
is reported first by a derived reader is left out, and so are the texts of errors.
-/

namespace Zbgp

open Std

namespace Ser

/-- A document of the format: what a serializer produces and a deserializer reads. `frac` is any number that is not a
natural number. -/
inductive Doc
  | null
  | bool (b : Bool)
  | num (n : Nat)
  | frac
  | str (s : String)
  | seq (l : List Doc)
  | map (l : List (String × Doc))

/-- The errors of `serde::de::Error`, with the field or variant they name. -/
inductive DeErr
  | invalidType
  | invalidValue
  | invalidLength (n : Nat)
  | unknownVariant (s : String)
  | unknownField (s : String)
  | missingField (s : String)
  | duplicateField (s : String)
  | custom
  | trailing
  | recursionLimit
deriving DecidableEq, Repr

/-- The result of a deserialization. -/
abbrev De (α : Type) := Except DeErr α

/-- The pair of a type's `Serialize` and `Deserialize`. -/
structure Codec (α : Type) where
  ser : α → Doc
  de : Doc → De α

/-! ## What `serde` gives for the types of `core` and `std` -/

/-- The unsigned integers. -/
def uint (w : Nat) : Codec (BitVec w) where
  ser x := .num x.toNat
  de
    | .num n => if n < 2 ^ w then .ok (BitVec.ofNat w n) else .error .invalidValue
    | _ => .error .invalidType

/-- `u8`. -/
abbrev u8 : Codec U8 := uint 8
/-- `u16`. -/
abbrev u16 : Codec U16 := uint 16
/-- `u32`. -/
abbrev u32 : Codec U32 := uint 32

/-- `bool`. -/
def bool : Codec Bool where
  ser x := .bool x
  de
    | .bool b => .ok b
    | _ => .error .invalidType

/-- A type written with its `Display` and read with its `FromStr`. -/
def text {α : Type} (shown : α → Txt) (parse : Txt → Option α) : Codec α where
  ser x := .str (String.ofList (shown x))
  de
    | .str s => match parse s.toList with
      | some x => .ok x
      | none => .error .custom
    | _ => .error .invalidType

/-- `Ipv4Addr`, in a human-readable format. -/
def ipv4 : Codec IPv4 := text showV4 parseV4
/-- `Ipv6Addr`, in a human-readable format. -/
def ipv6 : Codec IPv6 := text showV6 parseV6

/-- `Display` of `IpAddr`. -/
def showIp : IpAddr → Txt
  | .v4 a => showV4 a
  | .v6 a => showV6 a

/-- `FromStr` of `IpAddr`: an IPv4 address, or else an IPv6 address. -/
def parseIp (s : Txt) : Option IpAddr :=
  match parseV4 s with
  | some a => some (.v4 a)
  | none => (parseV6 s).map .v6

/-- `IpAddr`, in a human-readable format. -/
def ipaddr : Codec IpAddr := text showIp parseIp

/-- `Option<T>`. -/
def option {α : Type} (c : Codec α) : Codec (Option α) where
  ser
    | none => .null
    | some x => c.ser x
  de
    | .null => .ok none
    | d => do .ok (some (← c.de d))

/-- Reading a sequence element by element. -/
def seqOf {α : Type} (item : Doc → De α) : Doc → De (List α)
  | .seq l => l.mapM item
  | _ => .error .invalidType

/-- `Vec<T>`. -/
def vec {α : Type} (c : Codec α) : Codec (List α) where
  ser l := .seq (l.map c.ser)
  de := seqOf c.de

/-- `BTreeSet<T>`: written in order, read by inserting. -/
def btreeSet {α : Type} (lt : α → α → Bool) (c : Codec α) : Codec (List α) where
  ser l := .seq (l.map c.ser)
  de d := do .ok (setOf lt (← seqOf c.de d))

/-! ## What the derive macros generate -/

/-- The fields a derived reader of a `struct` with these fields gets: those of a map, where fields it does not know are
passed over and a field it knows may not come twice, or the elements of a sequence of the right length. -/
def structEntries (names : List String) : Doc → De (List (String × Doc))
  | .map es => match names.find? fun n => decide (1 < (es.filter fun e => e.1 == n).length) with
    | some n => .error (.duplicateField n)
    | none => .ok es
  | .seq l => if l.length = names.length then .ok (names.zip l) else .error (.invalidLength l.length)
  | _ => .error .invalidType

/-- One field of a derived `struct`, with the reader of its type. -/
def fieldWith {α : Type} (read : Doc → De α) (es : List (String × Doc)) (name : String) : De α :=
  match es.lookup name with
  | some d => read d
  | none => .error (.missingField name)

/-- One field of a derived `struct`. -/
def field {α : Type} (c : Codec α) (es : List (String × Doc)) (name : String) : De α := fieldWith c.de es name

/-- One field of type `Option<T>`, which may be left out. -/
def fieldOpt {α : Type} (c : Codec (Option α)) (es : List (String × Doc)) (name : String) : De (Option α) :=
  match es.lookup name with
  | some d => c.de d
  | none => .ok none

/-- The variant a document names: a text, or a map of one entry with the content of the variant. -/
def asVariant : Doc → De (String × Option Doc)
  | .str s => .ok (s, none)
  | .map [(k, d)] => .ok (k, some d)
  | _ => .error .invalidType

/-- A derived reader of an `enum`, given the readers of its variants. -/
def enumOf {α : Type} (d : Doc) (variants : List (String × (Option Doc → De α))) : De α := do
  let (k, content) ← asVariant d
  match variants.lookup k with
  | some read => read content
  | none => .error (.unknownVariant k)

/-- A variant without content. -/
def unitVariant {α : Type} (x : α) : Option Doc → De α
  | none => .ok x
  | some .null => .ok x
  | some _ => .error .invalidType

/-- A variant with a content read by `read`. -/
def contentOf {α : Type} (read : Doc → De α) : Option Doc → De α
  | some d => read d
  | none => .error .invalidType

/-- A variant with one unnamed field. -/
def newtypeVariant {α β : Type} (c : Codec α) (mk : α → β) : Option Doc → De β :=
  contentOf fun d => do .ok (mk (← c.de d))

/-! ## Hand-written implementations -/

/-- `serde::de::Visitor`: the methods a reader may provide. A method that is not provided fails. The methods for
sequences and maps give what they left unread. -/
structure Visitor (α : Type) where
  visitStr : String → De α := fun _ => .error .invalidType
  visitSeq : List Doc → De (α × List Doc) := fun _ => .error .invalidType
  visitMap : List (String × Doc) → De (α × List (String × Doc)) := fun _ => .error .invalidType
  visitEnum : String → Option Doc → De α := fun _ _ => .error .invalidType

/-- `Deserializer::deserialize_string`. -/
def deserializeString {α : Type} (v : Visitor α) : Doc → De α
  | .str s => v.visitStr s
  | _ => .error .invalidType

/-- `Deserializer::deserialize_struct`: nothing may be left unread. -/
def deserializeStruct {α : Type} (v : Visitor α) : Doc → De α
  | .seq l => do
    match ← v.visitSeq l with
    | (x, []) => .ok x
    | _ => .error .trailing
  | .map es => do
    match ← v.visitMap es with
    | (x, []) => .ok x
    | _ => .error .trailing
  | _ => .error .invalidType

/-- `Deserializer::deserialize_enum`. -/
def deserializeEnum {α : Type} (v : Visitor α) (d : Doc) : De α := do
  let (k, content) ← asVariant d
  v.visitEnum k content

/-- The loop of `visit_map`, `src/afi/mod.rs:1152-1169`, `1252-1269` and `1356-1373`: two fields named `n1` and `n2`. -/
def pairLoop {α β : Type} (n1 n2 : String) (c1 : Codec α) (c2 : Codec β) :
    List (String × Doc) → Option α → Option β → De (Option α × Option β)
  | [], a, b => .ok (a, b)
  | (k, d) :: es, a, b =>
    if k = n1 then
      if a.isSome then .error (.duplicateField n1) else do pairLoop n1 n2 c1 c2 es (some (← c1.de d)) b
    else if k = n2 then
      if b.isSome then .error (.duplicateField n2) else do pairLoop n1 n2 c1 c2 es a (some (← c2.de d))
    else .error (.unknownField k)

/-- The visitors `src/afi/mod.rs:1130-1174`, `1230-1274` and `1332-1377`: two fields, named `n1` and `n2`, reported as
`m1` and `m2` when missing. -/
def pairVisitor {α β γ : Type} (n1 n2 m1 m2 : String) (c1 : Codec α) (c2 : Codec β) (mk : α → β → γ) : Visitor γ where
  visitSeq l := match l with
    | [] => .error (.invalidLength 0)
    | [a] => do
      let _ ← c1.de a
      .error (.invalidLength 1)
    | a :: b :: rest => do .ok (mk (← c1.de a) (← c2.de b), rest)
  visitMap es := do
    let (a, b) ← pairLoop n1 n2 c1 c2 es none none
    match a with
    | none => .error (.missingField m1)
    | some a => match b with
      | none => .error (.missingField m2)
      | some b => .ok (mk a b, [])

end Ser

open Ser

/-- `src/afi/mod.rs:123-157`: `BgpNet` is written with its `Display` and read with its `FromStr`. -/
def BgpNet.codec : Codec BgpNet where
  ser x := .str (String.ofList x.display)
  de := deserializeString
    { visitStr := fun s => match BgpNet.parse s.toList with
        | some x => .ok x
        | none => .error .custom }

/-- `src/afi/mod.rs:302-308`, derived. -/
def BgpRD.codec : Codec BgpRD where
  ser x := .map [("rdh", u32.ser x.rdh), ("rdl", u32.ser x.rdl)]
  de d := do
    let es ← structEntries ["rdh", "rdl"] d
    .ok ⟨← field u32 es "rdh", ← field u32 es "rdl"⟩

/-- `src/afi/mod.rs:399-403`, derived, `transparent`. -/
def MplsLabels.codec : Codec MplsLabels where
  ser x := (vec u32).ser x.labels
  de d := do .ok ⟨← (vec u32).de d⟩

/-- `src/afi/mod.rs:1089-1188`. -/
def withRd {T : Type} (c : Codec T) : Codec (WithRd T) where
  ser x := .map [("rd", BgpRD.codec.ser x.rd), ("prefix", c.ser x.pfx)]
  de := deserializeStruct (pairVisitor "rd" "prefix" "rd" "prefix" BgpRD.codec c fun rd pfx => ⟨pfx, rd⟩)

/-- `src/afi/mod.rs:1189-1288`. -/
def labeled {T : Type} (c : Codec T) : Codec (Labeled T) where
  ser x := .map [("labels", MplsLabels.codec.ser x.labels), ("prefix", c.ser x.pfx)]
  de := deserializeStruct (pairVisitor "labels" "prefix" "labels" "prefix" MplsLabels.codec c fun labels pfx => ⟨pfx,
labels⟩)

/-- `src/afi/mod.rs:1289-1394`. A missing field is reported under the name of a field of `WithRd`, as in the code. -/
def withPathId {T : Type} (c : Codec T) : Codec (WithPathId T) where
  ser x := .map [("pathid", u32.ser x.pathid), ("nlri", c.ser x.nlri)]
  de := deserializeStruct (pairVisitor "pathid" "nlri" "rd" "prefix" u32 c fun pathid nlri => ⟨pathid, nlri⟩)

/-- `src/afi/ipv4.rs:20-26`, derived. -/
def BgpAddrV4.codec : Codec BgpAddrV4 where
  ser x := .map [("addr", ipv4.ser x.addr), ("prefixlen", u8.ser x.prefixlen)]
  de d := do
    let es ← structEntries ["addr", "prefixlen"] d
    .ok ⟨← field ipv4 es "addr", ← field u8 es "prefixlen"⟩

/-- `src/afi/ipv6.rs:19-25`, derived. -/
def BgpAddrV6.codec : Codec BgpAddrV6 where
  ser x := .map [("addr", ipv6.ser x.addr), ("prefixlen", u8.ser x.prefixlen)]
  de d := do
    let es ← structEntries ["addr", "prefixlen"] d
    .ok ⟨← field ipv6 es "addr", ← field u8 es "prefixlen"⟩

/-- `src/afi/ipv4.rs:205-209`, derived. -/
def BgpIPv4RD.codec : Codec BgpIPv4RD where
  ser x := .map [("rd", BgpRD.codec.ser x.rd), ("addr", ipv4.ser x.addr)]
  de d := do
    let es ← structEntries ["rd", "addr"] d
    .ok ⟨← field BgpRD.codec es "rd", ← field ipv4 es "addr"⟩

/-- `src/afi/ipv6.rs:215-219`, derived. -/
def BgpIPv6RD.codec : Codec BgpIPv6RD where
  ser x := .map [("rd", BgpRD.codec.ser x.rd), ("addr", ipv6.ser x.addr)]
  de d := do
    let es ← structEntries ["rd", "addr"] d
    .ok ⟨← field BgpRD.codec es "rd", ← field ipv6 es "addr"⟩

/-- `src/afi/mdt.rs:20-26`, derived. -/
def BgpMdtV4.codec : Codec BgpMdtV4 where
  ser x := .map [("addr", BgpAddrV4.codec.ser x.addr), ("group", ipv4.ser x.group)]
  de d := do
    let es ← structEntries ["addr", "group"] d
    .ok ⟨← field BgpAddrV4.codec es "addr", ← field ipv4 es "group"⟩

/-- `src/afi/mdt.rs:121-127`, derived. -/
def BgpMdtV6.codec : Codec BgpMdtV6 where
  ser x := .map [("addr", BgpAddrV6.codec.ser x.addr), ("group", ipv6.ser x.group)]
  de d := do
    let es ← structEntries ["addr", "group"] d
    .ok ⟨← field BgpAddrV6.codec es "addr", ← field ipv6 es "group"⟩

/-- `src/afi/vpls.rs:18-25`, derived. -/
def BgpAddrL2.codec : Codec BgpAddrL2 where
  ser x := .map [("rd", BgpRD.codec.ser x.rd), ("site", u16.ser x.site), ("offset", u16.ser x.offset),
    ("range", u16.ser x.range), ("labels", MplsLabels.codec.ser x.labels)]
  de d := do
    let es ← structEntries ["rd", "site", "offset", "range", "labels"] d
    .ok ⟨← field BgpRD.codec es "rd", ← field u16 es "site", ← field u16 es "offset", ← field u16 es "range",
      ← field MplsLabels.codec es "labels"⟩

/-- `src/afi/vpls.rs:67-73`, derived. -/
def BgpL2.codec : Codec BgpL2 where
  ser x := .map [("rd", BgpRD.codec.ser x.rd), ("site", u16.ser x.site), ("offset", u16.ser x.offset),
    ("range", u16.ser x.range)]
  de d := do
    let es ← structEntries ["rd", "site", "offset", "range"] d
    .ok ⟨← field BgpRD.codec es "rd", ← field u16 es "site", ← field u16 es "offset", ← field u16 es "range"⟩

/-- `src/afi/mac.rs:18-22`, derived, `transparent`: an array of six numbers. -/
def MacAddress.codec : Codec MacAddress where
  ser x := .seq [u8.ser x.m0, u8.ser x.m1, u8.ser x.m2, u8.ser x.m3, u8.ser x.m4, u8.ser x.m5]
  de
    | .seq [a, b, c, d, e, f] => do .ok ⟨← u8.de a, ← u8.de b, ← u8.de c, ← u8.de d, ← u8.de e, ← u8.de f⟩
    | .seq l => .error (.invalidLength l.length)
    | _ => .error .invalidType

/-- `src/afi/evpn.rs:20-24`, derived, `transparent`: an array of nine numbers. -/
def EVPNESI.codec : Codec EVPNESI where
  ser x := (vec u8).ser x.v.toList
  de d := do
    let l ← (vec u8).de d
    if h : l.length = 9 then .ok ⟨⟨l.toArray, by simpa using h⟩⟩ else .error (.invalidLength l.length)

/-- `src/afi/evpn.rs:54-61`, derived. -/
def BgpEVPN1.codec : Codec BgpEVPN1 where
  ser x := .map [("rd", BgpRD.codec.ser x.rd), ("esi_type", u8.ser x.esiType), ("esi", EVPNESI.codec.ser x.esi),
    ("ether_tag", u32.ser x.etherTag), ("labels", MplsLabels.codec.ser x.labels)]
  de d := do
    let es ← structEntries ["rd", "esi_type", "esi", "ether_tag", "labels"] d
    .ok ⟨← field BgpRD.codec es "rd", ← field u8 es "esi_type", ← field EVPNESI.codec es "esi", ← field u32 es "ether_tag",
      ← field MplsLabels.codec es "labels"⟩

/-- `src/afi/evpn.rs:110-119`, derived. -/
def BgpEVPN2.codec : Codec BgpEVPN2 where
  ser x := .map [("rd", BgpRD.codec.ser x.rd), ("esi_type", u8.ser x.esiType), ("esi", EVPNESI.codec.ser x.esi),
    ("ether_tag", u32.ser x.etherTag), ("mac", MacAddress.codec.ser x.mac), ("ip", (option ipaddr).ser x.ip),
    ("labels", MplsLabels.codec.ser x.labels)]
  de d := do
    let es ← structEntries ["rd", "esi_type", "esi", "ether_tag", "mac", "ip", "labels"] d
    .ok ⟨← field BgpRD.codec es "rd", ← field u8 es "esi_type", ← field EVPNESI.codec es "esi", ← field u32 es "ether_tag",
      ← field MacAddress.codec es "mac", ← fieldOpt (option ipaddr) es "ip", ← field MplsLabels.codec es "labels"⟩

/-- `src/afi/evpn.rs:227-232`, derived. -/
def BgpEVPN3.codec : Codec BgpEVPN3 where
  ser x := .map [("rd", BgpRD.codec.ser x.rd), ("ether_tag", u32.ser x.etherTag), ("ip", ipaddr.ser x.ip)]
  de d := do
    let es ← structEntries ["rd", "ether_tag", "ip"] d
    .ok ⟨← field BgpRD.codec es "rd", ← field u32 es "ether_tag", ← field ipaddr es "ip"⟩

/-- `src/afi/evpn.rs:293-299`, derived. -/
def BgpEVPN4.codec : Codec BgpEVPN4 where
  ser x := .map [("rd", BgpRD.codec.ser x.rd), ("esi_type", u8.ser x.esiType), ("esi", EVPNESI.codec.ser x.esi),
    ("ip", ipaddr.ser x.ip)]
  de d := do
    let es ← structEntries ["rd", "esi_type", "esi", "ip"] d
    .ok ⟨← field BgpRD.codec es "rd", ← field u8 es "esi_type", ← field EVPNESI.codec es "esi", ← field ipaddr es "ip"⟩

/-- `src/afi/evpn.rs:368-378`, derived. -/
def BgpEVPN5.codec : Codec BgpEVPN5 where
  ser x := .map [("rd", BgpRD.codec.ser x.rd), ("esi_type", u8.ser x.esiType), ("esi", EVPNESI.codec.ser x.esi),
    ("ether_tag", u32.ser x.etherTag), ("len", u8.ser x.len), ("prefix", ipaddr.ser x.pfx), ("gw_ip", ipaddr.ser x.gwIp),
    ("labels", MplsLabels.codec.ser x.labels)]
  de d := do
    let es ← structEntries ["rd", "esi_type", "esi", "ether_tag", "len", "prefix", "gw_ip", "labels"] d
    .ok ⟨← field BgpRD.codec es "rd", ← field u8 es "esi_type", ← field EVPNESI.codec es "esi", ← field u32 es "ether_tag",
      ← field u8 es "len", ← field ipaddr es "prefix", ← field ipaddr es "gw_ip", ← field MplsLabels.codec es "labels"⟩

/-- `src/afi/evpn.rs:470-477`, derived. -/
def BgpEVPN.codec : Codec BgpEVPN where
  ser
    | .evpn1 x => .map [("EVPN1", BgpEVPN1.codec.ser x)]
    | .evpn2 x => .map [("EVPN2", BgpEVPN2.codec.ser x)]
    | .evpn3 x => .map [("EVPN3", BgpEVPN3.codec.ser x)]
    | .evpn4 x => .map [("EVPN4", BgpEVPN4.codec.ser x)]
    | .evpn5 x => .map [("EVPN5", BgpEVPN5.codec.ser x)]
  de d := enumOf d
    [("EVPN1", newtypeVariant BgpEVPN1.codec .evpn1),
     ("EVPN2", newtypeVariant BgpEVPN2.codec .evpn2),
     ("EVPN3", newtypeVariant BgpEVPN3.codec .evpn3),
     ("EVPN4", newtypeVariant BgpEVPN4.codec .evpn4),
     ("EVPN5", newtypeVariant BgpEVPN5.codec .evpn5)]

/-- `src/afi/mvpn.rs:19-23`, derived. -/
def BgpMVPN1.codec : Codec BgpMVPN1 where
  ser x := .map [("rd", BgpRD.codec.ser x.rd), ("originator", ipaddr.ser x.originator)]
  de d := do
    let es ← structEntries ["rd", "originator"] d
    .ok ⟨← field BgpRD.codec es "rd", ← field ipaddr es "originator"⟩

/-- `src/afi/mvpn.rs:62-66`, derived. -/
def BgpMVPN2.codec : Codec BgpMVPN2 where
  ser x := .map [("rd", BgpRD.codec.ser x.rd), ("asn", u32.ser x.asn)]
  de d := do
    let es ← structEntries ["rd", "asn"] d
    .ok ⟨← field BgpRD.codec es "rd", ← field u32 es "asn"⟩

/-- `src/afi/mvpn.rs:96-102`, derived. -/
def BgpMVPN3.codec : Codec BgpMVPN3 where
  ser x := .map [("rd", BgpRD.codec.ser x.rd), ("source", ipaddr.ser x.source), ("group", ipaddr.ser x.group),
    ("originator", ipaddr.ser x.originator)]
  de d := do
    let es ← structEntries ["rd", "source", "group", "originator"] d
    .ok ⟨← field BgpRD.codec es "rd", ← field ipaddr es "source", ← field ipaddr es "group", ← field ipaddr es "originator"⟩

/-- `src/afi/mvpn.rs:160-164`, derived. -/
def BgpMVPN4.codec : Codec BgpMVPN4 where
  ser x := .map [("spmsi", BgpMVPN3.codec.ser x.spmsi), ("originator", ipaddr.ser x.originator)]
  de d := do
    let es ← structEntries ["spmsi", "originator"] d
    .ok ⟨← field BgpMVPN3.codec es "spmsi", ← field ipaddr es "originator"⟩

/-- `src/afi/mvpn.rs:202-207`, derived. -/
def BgpMVPN5.codec : Codec BgpMVPN5 where
  ser x := .map [("rd", BgpRD.codec.ser x.rd), ("source", ipaddr.ser x.source), ("group", ipaddr.ser x.group)]
  de d := do
    let es ← structEntries ["rd", "source", "group"] d
    .ok ⟨← field BgpRD.codec es "rd", ← field ipaddr es "source", ← field ipaddr es "group"⟩

/-- `src/afi/mvpn.rs:256-262`, derived. -/
def BgpMVPN67.codec : Codec BgpMVPN67 where
  ser x := .map [("rd", BgpRD.codec.ser x.rd), ("asn", u32.ser x.asn), ("rp", ipaddr.ser x.rp),
    ("group", ipaddr.ser x.group)]
  de d := do
    let es ← structEntries ["rd", "asn", "rp", "group"] d
    .ok ⟨← field BgpRD.codec es "rd", ← field u32 es "asn", ← field ipaddr es "rp", ← field ipaddr es "group"⟩

/-- `src/afi/mvpn.rs:313-322`, derived. -/
def BgpMVPN.codec : Codec BgpMVPN where
  ser
    | .t1 x => .map [("T1", BgpMVPN1.codec.ser x)]
    | .t2 x => .map [("T2", BgpMVPN2.codec.ser x)]
    | .t3 x => .map [("T3", BgpMVPN3.codec.ser x)]
    | .t4 x => .map [("T4", BgpMVPN4.codec.ser x)]
    | .t5 x => .map [("T5", BgpMVPN5.codec.ser x)]
    | .t6 x => .map [("T6", BgpMVPN67.codec.ser x)]
    | .t7 x => .map [("T7", BgpMVPN67.codec.ser x)]
  de d := enumOf d
    [("T1", newtypeVariant BgpMVPN1.codec .t1),
     ("T2", newtypeVariant BgpMVPN2.codec .t2),
     ("T3", newtypeVariant BgpMVPN3.codec .t3),
     ("T4", newtypeVariant BgpMVPN4.codec .t4),
     ("T5", newtypeVariant BgpMVPN5.codec .t5),
     ("T6", newtypeVariant BgpMVPN67.codec .t6),
     ("T7", newtypeVariant BgpMVPN67.codec .t7)]

/-- `src/afi/flowspec.rs:42-46`, derived. -/
def FS6.codec : Codec FS6 where
  ser x := .map [("ipv6", BgpAddrV6.codec.ser x.ipv6), ("offset", u8.ser x.offset)]
  de d := do
    let es ← structEntries ["ipv6", "offset"] d
    .ok ⟨← field BgpAddrV6.codec es "ipv6", ← field u8 es "offset"⟩

/-- `src/afi/flowspec.rs:83-87`, derived, `transparent`. -/
def FSV4U.codec : Codec FSV4U where
  ser x := (withRd BgpAddrV4.codec).ser x.pfx
  de d := do .ok ⟨← (withRd BgpAddrV4.codec).de d⟩

/-- `src/afi/flowspec.rs:125-132`, derived. -/
def FSOperValItem.codec : Codec FSOperValItem where
  ser x := .map [("and_bit", bool.ser x.andBit), ("lt_cmp", bool.ser x.ltCmp), ("gt_cmp", bool.ser x.gtCmp),
    ("eq_cmp", bool.ser x.eqCmp), ("value", u32.ser x.value)]
  de d := do
    let es ← structEntries ["and_bit", "lt_cmp", "gt_cmp", "eq_cmp", "value"] d
    .ok ⟨← field bool es "and_bit", ← field bool es "lt_cmp", ← field bool es "gt_cmp", ← field bool es "eq_cmp",
      ← field u32 es "value"⟩

/-- `src/afi/flowspec.rs:300-306`, derived. -/
def FSOperMaskItem.codec : Codec FSOperMaskItem where
  ser x := .map [("and_bit", bool.ser x.andBit), ("bit_not", bool.ser x.bitNot), ("bit_match", bool.ser x.bitMatch),
    ("value", u32.ser x.value)]
  de d := do
    let es ← structEntries ["and_bit", "bit_not", "bit_match", "value"] d
    .ok ⟨← field bool es "and_bit", ← field bool es "bit_not", ← field bool es "bit_match", ← field u32 es "value"⟩

/-- `src/afi/flowspec.rs:277-298`: the items. -/
def operVec {T : Type} (c : Codec T) : Codec (FSOperVec T) where
  ser x := (vec c).ser x.items
  de d := do .ok ⟨← (vec c).de d⟩

/-- `src/afi/flowspec.rs:668-702` and `717-732`: the value of one entry, read for the variant its key names. -/
def flowSpecVariant {T : Type} (c : Codec T) (key : String) (d : Doc) : De (BgpFlowSpec T) :=
  match key with
  | "PrefixDst" => do .ok (.prefixDst (← c.de d))
  | "PrefixSrc" => do .ok (.prefixSrc (← c.de d))
  | "Proto" => do .ok (.proto (← (operVec FSOperValItem.codec).de d))
  | "PortAny" => do .ok (.portAny (← (operVec FSOperValItem.codec).de d))
  | "PortDst" => do .ok (.portDst (← (operVec FSOperValItem.codec).de d))
  | "PortSrc" => do .ok (.portSrc (← (operVec FSOperValItem.codec).de d))
  | "IcmpType" => do .ok (.icmpType (← (operVec FSOperValItem.codec).de d))
  | "IcmpCode" => do .ok (.icmpCode (← (operVec FSOperValItem.codec).de d))
  | "TcpFlags" => do .ok (.tcpFlags (← (operVec FSOperMaskItem.codec).de d))
  | "PacketLength" => do .ok (.packetLength (← (operVec FSOperValItem.codec).de d))
  | "DSCP" => do .ok (.dscp (← (operVec FSOperValItem.codec).de d))
  | "Fragment" => do .ok (.fragment (← (operVec FSOperMaskItem.codec).de d))
  | "FlowLabel" => do .ok (.flowLabel (← (operVec FSOperValItem.codec).de d))
  | _ => .error (.unknownField key)

/-- The visitor `src/afi/flowspec.rs:704-738`, which has no method for an `enum`. -/
def flowSpecVisitor {T : Type} (c : Codec T) : Visitor (BgpFlowSpec T) where
  visitMap
    | (k, d) :: es => do .ok (← flowSpecVariant c k d, es)
    | [] => .error (.missingField "PrefixDst")

/-- `src/afi/flowspec.rs:605-649` and `739-753`. -/
def flowSpec {T : Type} (c : Codec T) : Codec (BgpFlowSpec T) where
  ser
    | .prefixDst a => .map [("PrefixDst", c.ser a)]
    | .prefixSrc a => .map [("PrefixSrc", c.ser a)]
    | .proto a => .map [("Proto", (operVec FSOperValItem.codec).ser a)]
    | .portAny a => .map [("PortAny", (operVec FSOperValItem.codec).ser a)]
    | .portDst a => .map [("PortDst", (operVec FSOperValItem.codec).ser a)]
    | .portSrc a => .map [("PortSrc", (operVec FSOperValItem.codec).ser a)]
    | .icmpType a => .map [("IcmpType", (operVec FSOperValItem.codec).ser a)]
    | .icmpCode a => .map [("IcmpCode", (operVec FSOperValItem.codec).ser a)]
    | .tcpFlags a => .map [("TcpFlags", (operVec FSOperMaskItem.codec).ser a)]
    | .packetLength a => .map [("PacketLength", (operVec FSOperValItem.codec).ser a)]
    | .dscp a => .map [("DSCP", (operVec FSOperValItem.codec).ser a)]
    | .fragment a => .map [("Fragment", (operVec FSOperMaskItem.codec).ser a)]
    | .flowLabel a => .map [("FlowLabel", (operVec FSOperValItem.codec).ser a)]
  de := deserializeEnum (flowSpecVisitor c)

/-- `src/afi/mod.rs:161-194`, derived. -/
def BgpAddrs.codec : Codec BgpAddrs where
  ser
    | .None => .str "None"
    | .IPV4U x => .map [("IPV4U", (vec BgpAddrV4.codec).ser x)]
    | .IPV4M x => .map [("IPV4M", (vec BgpAddrV4.codec).ser x)]
    | .IPV4LU x => .map [("IPV4LU", (vec (labeled BgpAddrV4.codec)).ser x)]
    | .VPNV4U x => .map [("VPNV4U", (vec (labeled (withRd BgpAddrV4.codec))).ser x)]
    | .VPNV4M x => .map [("VPNV4M", (vec (labeled (withRd BgpAddrV4.codec))).ser x)]
    | .IPV4MDT x => .map [("IPV4MDT", (vec (withRd BgpMdtV4.codec)).ser x)]
    | .IPV4MDTP x => .map [("IPV4MDTP", (vec (withPathId (withRd BgpMdtV4.codec))).ser x)]
    | .IPV6U x => .map [("IPV6U", (vec BgpAddrV6.codec).ser x)]
    | .IPV6M x => .map [("IPV6M", (vec BgpAddrV6.codec).ser x)]
    | .IPV6LU x => .map [("IPV6LU", (vec (labeled BgpAddrV6.codec)).ser x)]
    | .VPNV6U x => .map [("VPNV6U", (vec (labeled (withRd BgpAddrV6.codec))).ser x)]
    | .VPNV6M x => .map [("VPNV6M", (vec (labeled (withRd BgpAddrV6.codec))).ser x)]
    | .IPV6MDT x => .map [("IPV6MDT", (vec (withRd BgpMdtV6.codec)).ser x)]
    | .IPV6MDTP x => .map [("IPV6MDTP", (vec (withPathId (withRd BgpMdtV6.codec))).ser x)]
    | .L2VPLS x => .map [("L2VPLS", (vec BgpAddrL2.codec).ser x)]
    | .MVPN x => .map [("MVPN", (vec BgpMVPN.codec).ser x)]
    | .EVPN x => .map [("EVPN", (vec BgpEVPN.codec).ser x)]
    | .FS4U x => .map [("FS4U", (vec (flowSpec BgpAddrV4.codec)).ser x)]
    | .FS6U x => .map [("FS6U", (vec (flowSpec FS6.codec)).ser x)]
    | .FSV4U x => .map [("FSV4U", (vec (flowSpec FSV4U.codec)).ser x)]
    | .IPV4UP x => .map [("IPV4UP", (vec (withPathId BgpAddrV4.codec)).ser x)]
    | .IPV4MP x => .map [("IPV4MP", (vec (withPathId BgpAddrV4.codec)).ser x)]
    | .IPV4LUP x => .map [("IPV4LUP", (vec (withPathId (labeled BgpAddrV4.codec))).ser x)]
    | .VPNV4UP x => .map [("VPNV4UP", (vec (withPathId (labeled (withRd BgpAddrV4.codec)))).ser x)]
    | .VPNV4MP x => .map [("VPNV4MP", (vec (withPathId (labeled (withRd BgpAddrV4.codec)))).ser x)]
    | .IPV6UP x => .map [("IPV6UP", (vec (withPathId BgpAddrV6.codec)).ser x)]
    | .IPV6MP x => .map [("IPV6MP", (vec (withPathId BgpAddrV6.codec)).ser x)]
    | .IPV6LUP x => .map [("IPV6LUP", (vec (withPathId (labeled BgpAddrV6.codec))).ser x)]
    | .VPNV6UP x => .map [("VPNV6UP", (vec (withPathId (labeled (withRd BgpAddrV6.codec)))).ser x)]
    | .VPNV6MP x => .map [("VPNV6MP", (vec (withPathId (labeled (withRd BgpAddrV6.codec)))).ser x)]
  de d := enumOf d
    [("None", unitVariant .None),
     ("IPV4U", newtypeVariant (vec BgpAddrV4.codec) .IPV4U),
     ("IPV4M", newtypeVariant (vec BgpAddrV4.codec) .IPV4M),
     ("IPV4LU", newtypeVariant (vec (labeled BgpAddrV4.codec)) .IPV4LU),
     ("VPNV4U", newtypeVariant (vec (labeled (withRd BgpAddrV4.codec))) .VPNV4U),
     ("VPNV4M", newtypeVariant (vec (labeled (withRd BgpAddrV4.codec))) .VPNV4M),
     ("IPV4MDT", newtypeVariant (vec (withRd BgpMdtV4.codec)) .IPV4MDT),
     ("IPV4MDTP", newtypeVariant (vec (withPathId (withRd BgpMdtV4.codec))) .IPV4MDTP),
     ("IPV6U", newtypeVariant (vec BgpAddrV6.codec) .IPV6U),
     ("IPV6M", newtypeVariant (vec BgpAddrV6.codec) .IPV6M),
     ("IPV6LU", newtypeVariant (vec (labeled BgpAddrV6.codec)) .IPV6LU),
     ("VPNV6U", newtypeVariant (vec (labeled (withRd BgpAddrV6.codec))) .VPNV6U),
     ("VPNV6M", newtypeVariant (vec (labeled (withRd BgpAddrV6.codec))) .VPNV6M),
     ("IPV6MDT", newtypeVariant (vec (withRd BgpMdtV6.codec)) .IPV6MDT),
     ("IPV6MDTP", newtypeVariant (vec (withPathId (withRd BgpMdtV6.codec))) .IPV6MDTP),
     ("L2VPLS", newtypeVariant (vec BgpAddrL2.codec) .L2VPLS),
     ("MVPN", newtypeVariant (vec BgpMVPN.codec) .MVPN),
     ("EVPN", newtypeVariant (vec BgpEVPN.codec) .EVPN),
     ("FS4U", newtypeVariant (vec (flowSpec BgpAddrV4.codec)) .FS4U),
     ("FS6U", newtypeVariant (vec (flowSpec FS6.codec)) .FS6U),
     ("FSV4U", newtypeVariant (vec (flowSpec FSV4U.codec)) .FSV4U),
     ("IPV4UP", newtypeVariant (vec (withPathId BgpAddrV4.codec)) .IPV4UP),
     ("IPV4MP", newtypeVariant (vec (withPathId BgpAddrV4.codec)) .IPV4MP),
     ("IPV4LUP", newtypeVariant (vec (withPathId (labeled BgpAddrV4.codec))) .IPV4LUP),
     ("VPNV4UP", newtypeVariant (vec (withPathId (labeled (withRd BgpAddrV4.codec)))) .VPNV4UP),
     ("VPNV4MP", newtypeVariant (vec (withPathId (labeled (withRd BgpAddrV4.codec)))) .VPNV4MP),
     ("IPV6UP", newtypeVariant (vec (withPathId BgpAddrV6.codec)) .IPV6UP),
     ("IPV6MP", newtypeVariant (vec (withPathId BgpAddrV6.codec)) .IPV6MP),
     ("IPV6LUP", newtypeVariant (vec (withPathId (labeled BgpAddrV6.codec))) .IPV6LUP),
     ("VPNV6UP", newtypeVariant (vec (withPathId (labeled (withRd BgpAddrV6.codec)))) .VPNV6UP),
     ("VPNV6MP", newtypeVariant (vec (withPathId (labeled (withRd BgpAddrV6.codec)))) .VPNV6MP)]

/-- `src/afi/mod.rs:52-61`, derived. -/
def BgpAddr.codec : Codec BgpAddr where
  ser
    | .None => .str "None"
    | .V4 x => .map [("V4", ipv4.ser x)]
    | .V6 x => .map [("V6", ipv6.ser x)]
    | .V4RD x => .map [("V4RD", BgpIPv4RD.codec.ser x)]
    | .V6RD x => .map [("V6RD", BgpIPv6RD.codec.ser x)]
    | .L2 x => .map [("L2", BgpL2.codec.ser x)]
    | .MVPN x => .map [("MVPN", BgpMVPN.codec.ser x)]
  de d := enumOf d
    [("None", unitVariant .None),
     ("V4", newtypeVariant ipv4 .V4),
     ("V6", newtypeVariant ipv6 .V6),
     ("V4RD", newtypeVariant BgpIPv4RD.codec .V4RD),
     ("V6RD", newtypeVariant BgpIPv6RD.codec .V6RD),
     ("L2", newtypeVariant BgpL2.codec .L2),
     ("MVPN", newtypeVariant BgpMVPN.codec .MVPN)]

/-- `src/message/attributes/mod.rs:50-54`, derived. -/
def BgpAttrParams.codec : Codec BgpAttrParams where
  ser x := .map [("typecode", u8.ser x.typecode), ("flags", u8.ser x.flags)]
  de d := do
    let es ← structEntries ["typecode", "flags"] d
    .ok ⟨← field u8 es "typecode", ← field u8 es "flags"⟩

/-- `src/message/attributes/origin.rs:18-23`, derived. -/
def BgpAttrOrigin.codec : Codec BgpAttrOrigin where
  ser
    | .Igp => .str "Igp"
    | .Egp => .str "Egp"
    | .Incomplete => .str "Incomplete"
  de d := enumOf d
    [("Igp", unitVariant .Igp),
     ("Egp", unitVariant .Egp),
     ("Incomplete", unitVariant .Incomplete)]

/-- `src/message/attributes/origin.rs:37-41`, derived, `transparent`. -/
def BgpOrigin.codec : Codec BgpOrigin where
  ser x := BgpAttrOrigin.codec.ser x.value
  de d := do .ok ⟨← BgpAttrOrigin.codec.de d⟩

/-- `src/message/attributes/aspath.rs:20-24`, derived, `transparent`. -/
def BgpAS.codec : Codec BgpAS where
  ser x := u32.ser x.value
  de d := do .ok ⟨← u32.de d⟩

/-- `src/message/attributes/aspath.rs:28-32`, derived, `transparent`. -/
def BgpASpath.codec : Codec BgpASpath where
  ser x := (vec BgpAS.codec).ser x.value
  de d := do .ok ⟨← (vec BgpAS.codec).de d⟩

/-- `src/message/attributes/nexthop.rs:18-23`, derived, `transparent`. -/
def BgpNextHop.codec : Codec BgpNextHop where
  ser x := ipaddr.ser x.value
  de d := do .ok ⟨← ipaddr.de d⟩

/-- `src/message/attributes/med.rs:18-22`, derived, `transparent`. -/
def BgpMED.codec : Codec BgpMED where
  ser x := u32.ser x.value
  de d := do .ok ⟨← u32.de d⟩

/-- `src/message/attributes/localpref.rs:18-22`, derived, `transparent`. -/
def BgpLocalpref.codec : Codec BgpLocalpref where
  ser x := u32.ser x.value
  de d := do .ok ⟨← u32.de d⟩

/-- `src/message/attributes/atomicaggregate.rs:18-22`, derived, `transparent`. -/
def BgpAtomicAggregate.codec : Codec BgpAtomicAggregate where
  ser x := ipaddr.ser x.value
  de d := do .ok ⟨← ipaddr.de d⟩

/-- `src/message/attributes/aggregatoras.rs:18-24`, derived. -/
def BgpAggregatorAS.codec : Codec BgpAggregatorAS where
  ser x := .map [("asn", u32.ser x.asn), ("addr", ipv4.ser x.addr)]
  de d := do
    let es ← structEntries ["asn", "addr"] d
    .ok ⟨← field u32 es "asn", ← field ipv4 es "addr"⟩

/-- `src/message/attributes/originatorid.rs:19-23`, derived, `transparent`. -/
def BgpOriginatorID.codec : Codec BgpOriginatorID where
  ser x := ipaddr.ser x.value
  de d := do .ok ⟨← ipaddr.de d⟩

/-- `src/message/attributes/clusterlist.rs:18-22`, derived, `transparent`. -/
def BgpClusterList.codec : Codec BgpClusterList where
  ser x := (vec ipaddr).ser x.value
  de d := do .ok ⟨← (vec ipaddr).de d⟩

/-- `src/message/attributes/connector.rs:19-24`, derived. -/
def BgpConnector.codec : Codec BgpConnector where
  ser x := .map [("asn", u32.ser x.asn), ("addr", ipv4.ser x.addr), ("orig", ipv4.ser x.orig)]
  de d := do
    let es ← structEntries ["asn", "addr", "orig"] d
    .ok ⟨← field u32 es "asn", ← field ipv4 es "addr", ← field ipv4 es "orig"⟩

/-- `src/message/attributes/unknown.rs:18-24`, derived. -/
def BgpAttrUnknown.codec : Codec BgpAttrUnknown where
  ser x := .map [("params", BgpAttrParams.codec.ser x.params), ("value", (vec u8).ser x.value)]
  de d := do
    let es ← structEntries ["params", "value"] d
    .ok ⟨← field BgpAttrParams.codec es "params", ← field (vec u8) es "value"⟩

/-- `src/message/attributes/community.rs:28-32`, derived, `transparent`. -/
def BgpCommunity.codec : Codec BgpCommunity where
  ser x := u32.ser x.value
  de d := do .ok ⟨← u32.de d⟩

/-- `src/message/attributes/community.rs:36-40`, derived, `transparent`. -/
def BgpCommunityList.codec : Codec BgpCommunityList where
  ser x := (btreeSet BgpCommunity.lt BgpCommunity.codec).ser x.value
  de d := do .ok ⟨← (btreeSet BgpCommunity.lt BgpCommunity.codec).de d⟩

/-- `src/message/attributes/community.rs:45-50`, derived. -/
def BgpLargeCommunity.codec : Codec BgpLargeCommunity where
  ser x := .map [("ga", u32.ser x.ga), ("ldp1", u32.ser x.ldp1), ("ldp2", u32.ser x.ldp2)]
  de d := do
    let es ← structEntries ["ga", "ldp1", "ldp2"] d
    .ok ⟨← field u32 es "ga", ← field u32 es "ldp1", ← field u32 es "ldp2"⟩

/-- `src/message/attributes/community.rs:54-58`, derived, `transparent`. -/
def BgpLargeCommunityList.codec : Codec BgpLargeCommunityList where
  ser x := (btreeSet BgpLargeCommunity.lt BgpLargeCommunity.codec).ser x.value
  de d := do .ok ⟨← (btreeSet BgpLargeCommunity.lt BgpLargeCommunity.codec).de d⟩

/-- `src/message/attributes/extcommunity.rs:18-24`, derived. -/
def BgpExtCommunity.codec : Codec BgpExtCommunity where
  ser x := .map [("ctype", u8.ser x.ctype), ("subtype", u8.ser x.subtype), ("a", u16.ser x.a), ("b", u32.ser x.b)]
  de d := do
    let es ← structEntries ["ctype", "subtype", "a", "b"] d
    .ok ⟨← field u8 es "ctype", ← field u8 es "subtype", ← field u16 es "a", ← field u32 es "b"⟩

/-- `src/message/attributes/extcommunity.rs:172-176`, derived, `transparent`. -/
def BgpExtCommunityList.codec : Codec BgpExtCommunityList where
  ser x := (btreeSet BgpExtCommunity.lt BgpExtCommunity.codec).ser x.value
  de d := do .ok ⟨← (btreeSet BgpExtCommunity.lt BgpExtCommunity.codec).de d⟩

/-- `src/message/attributes/multiproto.rs:17-23`, derived. -/
def BgpMPUpdates.codec : Codec BgpMPUpdates where
  ser x := .map [("nexthop", BgpAddr.codec.ser x.nexthop), ("addrs", BgpAddrs.codec.ser x.addrs)]
  de d := do
    let es ← structEntries ["nexthop", "addrs"] d
    .ok ⟨← field BgpAddr.codec es "nexthop", ← field BgpAddrs.codec es "addrs"⟩

/-- `src/message/attributes/multiproto.rs:197-201`, derived. -/
def BgpMPWithdraws.codec : Codec BgpMPWithdraws where
  ser x := .map [("addrs", BgpAddrs.codec.ser x.addrs)]
  de d := do
    let es ← structEntries ["addrs"] d
    .ok ⟨← field BgpAddrs.codec es "addrs"⟩

/-- `src/message/attributes/pmsitunnelattr.rs:61-67`, derived, with `src/message/attributes/pmsitunnelattr.rs:18-24`,
`src/message/attributes/pmsitunnelattr.rs:36-40` (`transparent`) and `src/message/attributes/pmsitunnelattr.rs:48-52`. -/
def BgpPMSITunnelAttr.codec : Codec BgpPMSITunnelAttr where
  ser
    | .None => .str "None"
    | .RSVPTe e r t p =>
      .map [("RSVPTe", .map [("ext_tunnel_id", ipv4.ser e), ("reserved", u16.ser r), ("tunnel_id", u16.ser t),
        ("p2mp_id", ipv4.ser p)])]
    | .IngressRepl a => .map [("IngressRepl", ipv4.ser a)]
    | .MLDP a o => .map [("MLDP", .map [("rootnode", ipaddr.ser a), ("opaque", (vec u8).ser o)])]
  de d := enumOf d
    [("None", unitVariant .None),
     ("RSVPTe", contentOf fun d => do
        let es ← structEntries ["ext_tunnel_id", "reserved", "tunnel_id", "p2mp_id"] d
        .ok (.RSVPTe (← field ipv4 es "ext_tunnel_id") (← field u16 es "reserved") (← field u16 es "tunnel_id")
          (← field ipv4 es "p2mp_id"))),
     ("IngressRepl", newtypeVariant ipv4 .IngressRepl),
     ("MLDP", contentOf fun d => do
        let es ← structEntries ["rootnode", "opaque"] d
        .ok (.MLDP (← field ipaddr es "rootnode") (← field (vec u8) es "opaque")))]

/-- `src/message/attributes/pmsitunnelattr.rs:82-88`, derived. -/
def BgpPMSITunnel.codec : Codec BgpPMSITunnel where
  ser x := .map [("flags", u8.ser x.flags), ("tunnel_type", u8.ser x.tunnelType), ("label", MplsLabels.codec.ser x.label),
    ("tunnel_attribute", BgpPMSITunnelAttr.codec.ser x.tunnelAttribute)]
  de d := do
    let es ← structEntries ["flags", "tunnel_type", "label", "tunnel_attribute"] d
    .ok ⟨← field u8 es "flags", ← field u8 es "tunnel_type", ← field MplsLabels.codec es "label",
      ← field BgpPMSITunnelAttr.codec es "tunnel_attribute"⟩

mutual
/-- `src/message/attributes/mod.rs:64-84` and `src/message/attributes/attrset.rs:18-24`, derived. -/
def BgpAttrItem.ser : BgpAttrItem → Doc
  | .Origin x => .map [("Origin", BgpOrigin.codec.ser x)]
  | .ASPath x => .map [("ASPath", BgpASpath.codec.ser x)]
  | .NextHop x => .map [("NextHop", BgpNextHop.codec.ser x)]
  | .MED x => .map [("MED", BgpMED.codec.ser x)]
  | .LocalPref x => .map [("LocalPref", BgpLocalpref.codec.ser x)]
  | .AtomicAggregate x => .map [("AtomicAggregate", BgpAtomicAggregate.codec.ser x)]
  | .AggregatorAS x => .map [("AggregatorAS", BgpAggregatorAS.codec.ser x)]
  | .CommunityList x => .map [("CommunityList", BgpCommunityList.codec.ser x)]
  | .OriginatorID x => .map [("OriginatorID", BgpOriginatorID.codec.ser x)]
  | .ClusterList x => .map [("ClusterList", BgpClusterList.codec.ser x)]
  | .MPUpdates x => .map [("MPUpdates", BgpMPUpdates.codec.ser x)]
  | .MPWithdraws x => .map [("MPWithdraws", BgpMPWithdraws.codec.ser x)]
  | .ExtCommunityList x => .map [("ExtCommunityList", BgpExtCommunityList.codec.ser x)]
  | .LargeCommunityList x => .map [("LargeCommunityList", BgpLargeCommunityList.codec.ser x)]
  | .PMSITunnel x => .map [("PMSITunnel", BgpPMSITunnel.codec.ser x)]
  | .AttrSet asn attrs => .map [("AttrSet", .map [("asn", u32.ser asn), ("attrs", .seq (BgpAttrItem.serAll attrs))])]
  | .Connector x => .map [("Connector", BgpConnector.codec.ser x)]
  | .Unknown x => .map [("Unknown", BgpAttrUnknown.codec.ser x)]
/-- The elements of the `Vec` in an attribute set. -/
def BgpAttrItem.serAll : List BgpAttrItem → List Doc
  | [] => []
  | x :: l => x.ser :: BgpAttrItem.serAll l
end

/-- `src/message/attributes/attrset.rs:18-24`, derived, for a reader `item` of the attributes in the set. -/
def BgpAttrItem.attrSetDe (item : Doc → De BgpAttrItem) (d : Doc) : De BgpAttrItem := do
  let es ← structEntries ["asn", "attrs"] d
  .ok (.AttrSet (← field u32 es "asn") (← fieldWith (seqOf item) es "attrs"))

/-- `src/message/attributes/mod.rs:64-84`, derived. The fuel bounds the nesting of attribute sets. -/
def BgpAttrItem.deN : Nat → Doc → De BgpAttrItem
  | 0, _ => .error .recursionLimit
  | n + 1, d => enumOf d
    [("Origin", newtypeVariant BgpOrigin.codec .Origin),
     ("ASPath", newtypeVariant BgpASpath.codec .ASPath),
     ("NextHop", newtypeVariant BgpNextHop.codec .NextHop),
     ("MED", newtypeVariant BgpMED.codec .MED),
     ("LocalPref", newtypeVariant BgpLocalpref.codec .LocalPref),
     ("AtomicAggregate", newtypeVariant BgpAtomicAggregate.codec .AtomicAggregate),
     ("AggregatorAS", newtypeVariant BgpAggregatorAS.codec .AggregatorAS),
     ("CommunityList", newtypeVariant BgpCommunityList.codec .CommunityList),
     ("OriginatorID", newtypeVariant BgpOriginatorID.codec .OriginatorID),
     ("ClusterList", newtypeVariant BgpClusterList.codec .ClusterList),
     ("MPUpdates", newtypeVariant BgpMPUpdates.codec .MPUpdates),
     ("MPWithdraws", newtypeVariant BgpMPWithdraws.codec .MPWithdraws),
     ("ExtCommunityList", newtypeVariant BgpExtCommunityList.codec .ExtCommunityList),
     ("LargeCommunityList", newtypeVariant BgpLargeCommunityList.codec .LargeCommunityList),
     ("PMSITunnel", newtypeVariant BgpPMSITunnel.codec .PMSITunnel),
     ("AttrSet", contentOf (BgpAttrItem.attrSetDe (BgpAttrItem.deN n))),
     ("Connector", newtypeVariant BgpConnector.codec .Connector),
     ("Unknown", newtypeVariant BgpAttrUnknown.codec .Unknown)]

mutual
/-- The nesting of a document. -/
def Ser.Doc.depth : Doc → Nat
  | .seq l => Doc.depthAll l + 1
  | .map es => Doc.depthMap es + 1
  | _ => 0
/-- The nesting of the elements of a sequence. -/
def Ser.Doc.depthAll : List Doc → Nat
  | [] => 0
  | d :: l => max d.depth (Doc.depthAll l)
/-- The nesting of the values of a map. -/
def Ser.Doc.depthMap : List (String × Doc) → Nat
  | [] => 0
  | e :: l => max e.2.depth (Doc.depthMap l)
end

/-- `src/message/attributes/mod.rs:64-84`, derived: attribute sets are read as deep as the document goes. A format's own
limit on nesting is left out. -/
def BgpAttrItem.codec : Codec BgpAttrItem where
  ser := BgpAttrItem.ser
  de d := BgpAttrItem.deN (d.depth + 1) d

end Zbgp
