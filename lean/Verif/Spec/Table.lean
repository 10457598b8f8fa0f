import Verif.Model.Update
import Verif.Model.Derived
import Verif.Spec.Derived

/-!
# A table of routes kept from received UPDATE messages

A program keeps a `BTreeMap` with routes as keys: for every UPDATE it removes the withdrawn routes and inserts the announced ones
with the attributes. What BGP says of such a table is said here independently of the program.
-/

namespace Zbgp.Spec

open Zbgp

/-! ## What makes two routes the same route -/

/-- What identifies a route: an UPDATE that announces or withdraws a route with the same `ident` replaces or ends the earlier
announcement. -/
class RouteId (T : Type) (I : outParam Type) where
  ident : T → I

/-- RFC 4271 4.3: the length in bits and that many bits of the prefix; "the value of trailing bits is irrelevant". -/
instance : RouteId BgpAddrV4 (Nat × Nat) where
  ident x := (x.prefixlen.toNat, x.addr.toNat / 2 ^ (32 - x.prefixlen.toNat))

/-- The same for IPv6. -/
instance : RouteId BgpAddrV6 (Nat × Nat) where
  ident x := (x.prefixlen.toNat, x.addr.toNat / 2 ^ (128 - x.prefixlen.toNat))

/-- RFC 8277 2.4: the labels are no part of what is withdrawn. -/
instance {T I : Type} [RouteId T I] : RouteId (Labeled T) I where
  ident x := RouteId.ident x.pfx

/-- RFC 4364 4.1: routes with different route distinguishers are different. -/
instance {T I : Type} [RouteId T I] : RouteId (WithRd T) (BgpRD × I) where
  ident x := (x.rd, RouteId.ident x.pfx)

/-- RFC 7911 3: routes with different path identifiers are different. -/
instance {T I : Type} [RouteId T I] : RouteId (WithPathId T) (U32 × I) where
  ident x := (x.pathid, RouteId.ident x.nlri)

/-- A zero Ethernet segment identifier. -/
def noSegment : EVPNESI := ⟨⟨#[0, 0, 0, 0, 0, 0, 0, 0, 0], rfl⟩⟩

/-- RFC 7432 7.1 to 7.4 and RFC 9136 3.1: labels, and for routes of type 2 and 5 also the Ethernet segment, and for type 5 the
gateway, are attributes of the route and no part of the key. -/
def evpnKey : BgpEVPN → BgpEVPN
  | .evpn1 r => .evpn1 { r with labels := noLabels }
  | .evpn2 r => .evpn2 { r with esiType := 0, esi := noSegment, labels := noLabels }
  | .evpn3 r => .evpn3 r
  | .evpn4 r => .evpn4 r
  | .evpn5 r => .evpn5 { r with esiType := 0, esi := noSegment, gwIp := .v4 0, labels := noLabels }

/-- What `evpnKey` leaves out but the labels. -/
def evpnSegment : BgpEVPN → U8 × EVPNESI × IpAddr
  | .evpn2 r => (r.esiType, r.esi, .v4 0)
  | .evpn5 r => (r.esiType, r.esi, r.gwIp)
  | _ => (0, noSegment, .v4 0)

instance : RouteId BgpEVPN BgpEVPN where
  ident := evpnKey

/-! ## The table of the program -/

/-- `std::collections::BTreeMap`, as the list of its entries. It looks at keys with `cmp` only; that `cmp` is a total order is
C88. -/
abbrev Table (K V : Type) := List (K × V)

namespace Table

variable {K V : Type} [ROrd K]

/-- `BTreeMap::get`. -/
def get (t : Table K V) (k : K) : Option V := (t.find? fun e => ROrd.cmp k e.1 == .eq).map Prod.snd

/-- `BTreeMap::insert`: an entry with an equal key gets the new value and keeps its key. -/
def insert (t : Table K V) (k : K) (v : V) : Table K V :=
  if t.any fun e => ROrd.cmp k e.1 == .eq then t.map fun e => if ROrd.cmp k e.1 == .eq then (e.1, v) else e
  else t ++ [(k, v)]

/-- `BTreeMap::remove`. -/
def remove (t : Table K V) (k : K) : Table K V := t.filter fun e => ROrd.cmp k e.1 != .eq

end Table

/-- What an UPDATE says of the routes of one kind. -/
structure Step (T V : Type) where
  withdrawn : List T
  announced : List T
  info : V

/-- What the program does with it. -/
def Table.step {T V : Type} [ROrd T] (t : Table T V) (s : Step T V) : Table T V :=
  s.announced.foldl (fun t x => t.insert x s.info) (s.withdrawn.foldl (fun t x => t.remove x) t)

/-- The table after a history, from an empty one. -/
def tableOf {T V : Type} [ROrd T] (hist : List (Step T V)) : Table T V := hist.foldl Table.step []

/-- The routes of one kind that an UPDATE withdraws and announces, in its sections and in its multiprotocol attributes. -/
def stepOf {T : Type} (routes : BgpAddrs → List T) (m : BgpUpdateMessage) : Step T (List BgpAttrItem) where
  withdrawn := routes m.withdraws ++ m.attrs.flatMap fun a => match a with
    | .MPWithdraws w => routes w.addrs
    | _ => []
  announced := routes m.updates ++ m.attrs.flatMap fun a => match a with
    | .MPUpdates u => routes u.addrs
    | _ => []
  info := m.attrs

/-- The program: decodes the body of one UPDATE after the other and keeps the table. -/
def watch {T : Type} [ROrd T] (p : BgpSessionParams) (routes : BgpAddrs → List T) :
    List Bytes → Table T (List BgpAttrItem) → Res (Table T (List BgpAttrItem))
  | [], t => .ok t
  | b :: bs, t => do
    let m ← BgpUpdateMessage.new.decodeFrom p b
    watch p routes bs (t.step (stepOf routes m))

/-! ## What BGP says -/

/-- After the history the route `i` is in force: it was announced last as `x` with `v`, and was not withdrawn since. -/
def InForce {T I V : Type} [RouteId T I] (hist : List (Step T V)) (i : I) (x : T) (v : V) : Prop :=
  ∃ before s after a1 a2, hist = before ++ s :: after ∧ s.info = v ∧ s.announced = a1 ++ x :: a2 ∧ RouteId.ident x = i ∧
    (∀ y ∈ a2, RouteId.ident y ≠ i) ∧ ∀ s' ∈ after, ∀ y ∈ s'.withdrawn ++ s'.announced, RouteId.ident y ≠ i

/-- A prefix without set bits behind its length. -/
class Tidy (T : Type) where
  Tidy : T → Prop

instance : Tidy BgpAddrV4 where
  Tidy x := x.prefixlen.toNat ≤ 32 ∧ x.addr.toNat % 2 ^ (32 - x.prefixlen.toNat) = 0

instance : Tidy BgpAddrV6 where
  Tidy x := x.prefixlen.toNat ≤ 128 ∧ x.addr.toNat % 2 ^ (128 - x.prefixlen.toNat) = 0

instance {T : Type} [Tidy T] : Tidy (Labeled T) where
  Tidy x := Tidy.Tidy x.pfx

instance {T : Type} [Tidy T] : Tidy (WithRd T) where
  Tidy x := Tidy.Tidy x.pfx

instance {T : Type} [Tidy T] : Tidy (WithPathId T) where
  Tidy x := Tidy.Tidy x.nlri

/-- The kinds of prefixes without labels. -/
inductive PlainKind : (T : Type) → {I : Type} → [ROrd T] → [RouteId T I] → [Tidy T] → Prop
  | v4 : PlainKind BgpAddrV4
  | v6 : PlainKind BgpAddrV6
  | v4p : PlainKind (WithPathId BgpAddrV4)
  | v6p : PlainKind (WithPathId BgpAddrV6)

/-- The kinds of prefixes with labels. -/
inductive LabeledKind : (T : Type) → {I : Type} → [ROrd T] → [RouteId T I] → [Tidy T] → Prop
  | v4 : LabeledKind (Labeled BgpAddrV4)
  | v6 : LabeledKind (Labeled BgpAddrV6)
  | vpn4 : LabeledKind (Labeled (WithRd BgpAddrV4))
  | vpn6 : LabeledKind (Labeled (WithRd BgpAddrV6))
  | v4p : LabeledKind (WithPathId (Labeled BgpAddrV4))
  | v6p : LabeledKind (WithPathId (Labeled BgpAddrV6))
  | vpn4p : LabeledKind (WithPathId (Labeled (WithRd BgpAddrV4)))
  | vpn6p : LabeledKind (WithPathId (Labeled (WithRd BgpAddrV6)))

/-- The history speaks of routes of `S` only. -/
def SpeaksOf {T V : Type} (S : T → Prop) (hist : List (Step T V)) : Prop :=
  ∀ s ∈ hist, ∀ x ∈ s.withdrawn ++ s.announced, S x

end Zbgp.Spec
