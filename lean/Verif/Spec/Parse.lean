import Verif.Spec.Text

/-!
# Which texts stand for which values

Written without the parsers: numbers, parts between separators, IPv4 and IPv6 addresses, prefixes, route distinguishers,
communities.
-/

namespace Zbgp.Spec

/-- A number in decimal: an optional `+` and at least one digit. -/
def Number (t : Txt) (n : Nat) : Prop :=
  ∃ (plus : Bool) (ds : List Nat), ds ≠ [] ∧ (∀ d ∈ ds, d < 10) ∧
    t = (if plus then ['+'] else []) ++ ds.map Nat.digitChar ∧ n = ds.foldl (fun n d => n * 10 + d) 0

/-- The parts of a text between separators. -/
def Parts (sep : Char) (t : Txt) (l : List Txt) : Prop :=
  l ≠ [] ∧ (∀ p ∈ l, sep ∉ p) ∧ t = List.intercalate [sep] l

/-- Dotted decimal without leading zeroes. -/
def V4Text (t : Txt) (a : IPv4) : Prop := t = (v4String a).toList

/-- A group of an IPv6 address: one to four hexadecimal digits. -/
def Group (t : Txt) (g : Nat) : Prop :=
  t ≠ [] ∧ t.length ≤ 4 ∧ (∀ c ∈ t, c ∈ hexDigits) ∧ g = hexNumber t

/-- Groups with colons between them. -/
inductive Groups : Txt → List Nat → Prop
  | one {t g} : Group t g → Groups t [g]
  | more {t g u gs} : Group t g → Groups u gs → Groups (t ++ ':' :: u) (g :: gs)

/-- The same, the last two possibly written as an IPv4 address. -/
inductive GroupsV4 : Txt → List Nat → Prop
  | one {t g} : Group t g → GroupsV4 t [g]
  | v4 {t a} : V4Text t a → GroupsV4 t [a.toNat / 65536, a.toNat % 65536]
  | more {t g u gs} : Group t g → GroupsV4 u gs → GroupsV4 (t ++ ':' :: u) (g :: gs)

/-- The number that groups of 16 bits make. -/
def groupsNumber (gs : List Nat) : Nat := gs.foldl (fun n g => n * 65536 + g) 0

/-- The texts of an IPv6 address (RFC 4291, section 2.2): eight groups, or fewer with `::` for the zero groups between. -/
def V6Text (t : Txt) (a : IPv6) : Prop :=
  (∃ gs, GroupsV4 t gs ∧ gs.length = 8 ∧ a.toNat = groupsNumber gs) ∨
  ∃ th h tl l, (th = [] ∧ h = [] ∨ Groups th h) ∧ (tl = [] ∧ l = [] ∨ GroupsV4 tl l) ∧ h.length + l.length ≤ 7 ∧
    t = th ++ ':' :: ':' :: tl ∧ a.toNat = groupsNumber (h ++ List.replicate (8 - (h.length + l.length)) 0 ++ l)

/-- The texts of a MAC address that the library accepts: there is a hexadecimal digit, and the last twelve of them are the
address. -/
def MacText (t : Txt) (m : MacAddress) : Prop := (∃ c ∈ t, c ∈ hexDigits) ∧ m.toU64.toNat = hexNumber t % 2 ^ 48

/-- The length part of a prefix: a number below 256, or anything else for the full length `w`. -/
def LengthText (w : Nat) (t : Txt) (p : U8) : Prop :=
  Number t p.toNat ∨ (¬ ∃ n < 256, Number t n) ∧ p.toNat = w

/-- The texts of a prefix that the library accepts: an address for a host, an address and a length; further parts are not
looked at. -/
def PrefixText {A : Type} (addr : Txt → A → Prop) (w : Nat) (t : Txt) (a : A) (p : U8) : Prop :=
  ∃ l, Parts '/' t l ∧
    match l with
    | [] => False
    | [x] => addr x a ∧ p.toNat = w
    | x :: y :: _ => addr x a ∧ LengthText w y p

/-- The texts of a route distinguisher that the library accepts: one number, for the upper half, or two; further parts are
not looked at. -/
def RdText (t : Txt) (r : BgpRD) : Prop :=
  ∃ l, Parts ':' t l ∧
    match l with
    | [] => False
    | [x] => Number x r.rdh.toNat ∧ r.rdl = 0
    | x :: y :: _ => Number x r.rdh.toNat ∧ Number y r.rdl.toNat

/-- The code points with the Unicode property White_Space. -/
def whiteSpace : List Nat :=
  [9, 10, 11, 12, 13, 32, 0x85, 0xa0, 0x1680, 0x2000, 0x2001, 0x2002, 0x2003, 0x2004, 0x2005, 0x2006, 0x2007, 0x2008, 0x2009,
   0x200a, 0x2028, 0x2029, 0x202f, 0x205f, 0x3000]

/-- The names of well-known communities. -/
def communityNames : List (String × Nat) :=
  [("no_export", 0xffffff01), ("noexport", 0xffffff01), ("no-export", 0xffffff01),
   ("no_advertise", 0xffffff02), ("no-advertise", 0xffffff02), ("no_export_subconfed", 0xffffff03),
   ("nopeer", 0xffffff04), ("no-peer", 0xffffff04)]

/-- The texts of a community: a name, or a number or two numbers below 65536 with a colon, with white space around. -/
def CommunityText (t : Txt) (c : BgpCommunity) : Prop :=
  (∃ e ∈ communityNames, t = e.1.toList ∧ c.value.toNat = e.2) ∨
  ∃ l m r, t = l ++ m ++ r ∧ (∀ c ∈ l, c.toNat ∈ whiteSpace) ∧ (∀ c ∈ r, c.toNat ∈ whiteSpace) ∧
    (Number m c.value.toNat ∨
      ∃ x y i j, m = x ++ ':' :: y ∧ Number x i ∧ Number y j ∧ i < 65536 ∧ j < 65536 ∧ c.value.toNat = i * 65536 + j)

end Zbgp.Spec
