import Verif.Model.Mac
import Verif.Model.Mdt
import Verif.Model.Attrs

/-!
# Model of the text forms: `Display` and `FromStr`

A `&str` or `String` is the list of its characters. The errors of parsers carry nothing that is modelled: `none` is `Err`.

The first part models the functions of Rust's standard library that the code calls, after `core/src/num/mod.rs`,
`core/src/str`, `core/src/net/parser.rs` and `core/src/net/ip_addr.rs`; these are part of the trusted base. The second part
models the code in /repo.
-/

namespace Zbgp

/-- `str`, `String`. -/
abbrev Txt := List Char

/-! ## The standard library -/

namespace Std

/-- `{}` of an unsigned integer. -/
def dec (n : Nat) : Txt := Nat.toDigits 10 n

/-- `{:x}` of an unsigned integer. -/
def hex (n : Nat) : Txt := Nat.toDigits 16 n

/-- `{:02x}` of an unsigned integer. -/
def hex2 (n : Nat) : Txt := if n < 16 then '0' :: hex n else hex n

/-- The value of a character as a digit, `0`-`9`, then letters. -/
def charVal (c : Char) : Option Nat :=
  if '0' ≤ c ∧ c ≤ '9' then some (c.toNat - 48)
  else if 'a' ≤ c ∧ c ≤ 'z' then some (c.toNat - 97 + 10)
  else if 'A' ≤ c ∧ c ≤ 'Z' then some (c.toNat - 65 + 10)
  else none

/-- `char::to_digit`. -/
def toDigit (radix : Nat) (c : Char) : Option Nat := (charVal c).bind fun d => if d < radix then some d else none

/-- The loop of `from_str_radix` for radix 10: every character must be a digit. -/
def digits : Nat → Txt → Option Nat
  | acc, [] => some acc
  | acc, c :: cs =>
    match toDigit 10 c with
    | some d => digits (acc * 10 + d) cs
    | none => none

/-- A leading `+` is skipped. -/
def stripPlus : Txt → Txt
  | '+' :: r => r
  | s => s

/-- `parse::<u8>`, `parse::<u16>`, `parse::<u32>`: an optional `+`, then at least one digit; the value must be below `2 ^ w`.
The code checks for overflow after each digit, which comes to the same. -/
def parseU (w : Nat) (s : Txt) : Option (BitVec w) :=
  if stripPlus s = [] then none
  else match digits 0 (stripPlus s) with
    | some v => if v < 2 ^ w then some (BitVec.ofNat w v) else none
    | none => none

/-- `str::split` with a pattern of single characters: there is always at least one part. -/
def split (p : Char → Bool) : Txt → List Txt
  | [] => [[]]
  | c :: cs =>
    match split p cs with
    | [] => [[]]
    | h :: t => if p c then [] :: h :: t else (c :: h) :: t

/-- `char::is_whitespace`: the Unicode property White_Space. -/
def isWs (c : Char) : Bool :=
  let n := c.toNat
  (9 ≤ n && n ≤ 13) || n = 32 || n = 0x85 || n = 0xa0 || n = 0x1680 || (0x2000 ≤ n && n ≤ 0x200a) || n = 0x2028 || n = 0x2029 ||
    n = 0x202f || n = 0x205f || n = 0x3000

/-- `str::trim`. -/
def trim (s : Txt) : Txt := ((s.dropWhile isWs).reverse.dropWhile isWs).reverse

/-- `Display` and `Debug` of `Ipv4Addr`. -/
def showV4 (a : IPv4) : Txt :=
  dec (a.toNat / 2 ^ 24) ++ '.' :: dec (a.toNat / 2 ^ 16 % 256) ++ '.' :: dec (a.toNat / 2 ^ 8 % 256) ++ '.' :: dec (a.toNat % 256)

/-- The digits at the start of the input, at most `max + 1` of them: the loop of `read_number`. Value and number of the digits
read, rest of the input. -/
def readDigits (radix : Nat) : Nat → Nat → Nat → Txt → Nat × Nat × Txt
  | 0, v, n, s => (v, n, s)
  | _ + 1, v, n, [] => (v, n, [])
  | k + 1, v, n, c :: cs =>
    match toDigit radix c with
    | some d => readDigits radix k (v * radix + d) (n + 1) cs
    | none => (v, n, c :: cs)

/-- `Parser::read_number` with `max_digits`, for values below `bound`. -/
def readNumber (radix max : Nat) (zeros : Bool) (bound : Nat) (s : Txt) : Option (Nat × Txt) :=
  let (v, n, rest) := readDigits radix (max + 1) 0 0 s
  if n > max then none
  else if n = 0 then none
  else if ¬ zeros ∧ s.head? = some '0' ∧ n > 1 then none
  else if v < bound then some (v, rest)
  else none

/-- `Parser::read_given_char`. -/
def readChar (c : Char) : Txt → Option Txt
  | d :: s => if d = c then some s else none
  | [] => none

/-- `Parser::read_separator`. -/
def readSep {α : Type} (sep : Char) (i : Nat) (inner : Txt → Option (α × Txt)) (s : Txt) : Option (α × Txt) :=
  if i > 0 then (readChar sep s).bind inner else inner s

/-- `Parser::read_ipv4_addr`: the four octets. -/
def readV4 (s : Txt) : Option (IPv4 × Txt) := do
  let octet := readNumber 10 3 false 256
  let (a, s) ← readSep '.' 0 octet s
  let (b, s) ← readSep '.' 1 octet s
  let (c, s) ← readSep '.' 2 octet s
  let (d, s) ← readSep '.' 3 octet s
  some (BitVec.ofNat 32 (a * 2 ^ 24 + b * 2 ^ 16 + c * 2 ^ 8 + d), s)

/-- `FromStr` of `Ipv4Addr`. Text of more than 15 characters, which the code rejects first, has no parse here. -/
def parseV4 (s : Txt) : Option IPv4 :=
  match readV4 s with
  | some (a, []) => some a
  | _ => none

/-- The eight 16-bit groups of an IPv6 address. -/
def segments (a : IPv6) : List Nat :=
  [a.toNat / 2 ^ 112, a.toNat / 2 ^ 96 % 65536, a.toNat / 2 ^ 80 % 65536, a.toNat / 2 ^ 64 % 65536,
   a.toNat / 2 ^ 48 % 65536, a.toNat / 2 ^ 32 % 65536, a.toNat / 2 ^ 16 % 65536, a.toNat % 65536]

/-- The address with the groups given. -/
def ofSegments (l : List Nat) : IPv6 := BitVec.ofNat 128 (l.foldl (fun acc g => acc * 65536 + g) 0)

/-- `read_groups`, a local function of `Parser::read_ipv6_addr`, from group `i` on of `i + k`: the groups read, whether an IPv4
address was the last of them, the rest of the input. -/
def readGroups : Nat → Nat → Txt → List Nat × Bool × Txt
  | 0, _, s => ([], false, s)
  | k + 1, i, s =>
    match (if k > 0 then readSep ':' i readV4 s else none) with
    | some (a, s) => ([a.toNat / 65536, a.toNat % 65536], true, s)
    | none =>
      match readSep ':' i (readNumber 16 4 true 65536) s with
      | some (g, s) =>
        let (gs, v4, s) := readGroups k (i + 1) s
        (g :: gs, v4, s)
      | none => ([], false, s)

/-- `Parser::read_ipv6_addr`. -/
def readV6 (s : Txt) : Option (IPv6 × Txt) :=
  let (head, v4, s) := readGroups 8 0 s
  if head.length = 8 then some (ofSegments head, s)
  else if v4 then none
  else do
    let s ← readChar ':' s
    let s ← readChar ':' s
    let (tail, _, s) := readGroups (8 - (head.length + 1)) 0 s
    some (ofSegments (head ++ List.replicate (8 - head.length - tail.length) 0 ++ tail), s)

/-- `FromStr` of `Ipv6Addr`. -/
def parseV6 (s : Txt) : Option IPv6 :=
  match readV6 s with
  | some (a, []) => some a
  | _ => none

/-- The loop over the groups in `Display` of `Ipv6Addr`: start and length of the longest run of zeroes so far and of the
current one. -/
def longestZeroes : Nat → List Nat → Nat × Nat → Nat × Nat → Nat × Nat
  | _, [], longest, _ => longest
  | i, g :: gs, longest, current =>
    if g = 0 then
      let current := (if current.2 = 0 then i else current.1, current.2 + 1)
      longestZeroes (i + 1) gs (if current.2 > longest.2 then current else longest) current
    else longestZeroes (i + 1) gs longest (0, 0)

/-- `fmt_subslice`: hexadecimal groups with colons between them. -/
def showGroups : List Nat → Txt
  | [] => []
  | [g] => hex g
  | g :: h :: r => hex g ++ ':' :: showGroups (h :: r)

/-- `Display` and `Debug` of `Ipv6Addr`: IPv4-mapped addresses with their IPv4 address; the longest run of two or more zero
groups, the first of equals, as `::`. -/
def showV6 (a : IPv6) : Txt :=
  if a.toNat / 2 ^ 32 = 0xffff then "::ffff:".toList ++ showV4 (BitVec.ofNat 32 a.toNat)
  else
    let z := longestZeroes 0 (segments a) (0, 0) (0, 0)
    if z.2 > 1 then
      showGroups ((segments a).take z.1) ++ "::".toList ++ showGroups ((segments a).drop (z.1 + z.2))
    else showGroups (segments a)

end Std

open Std

/-! ## Route distinguishers -/

/-- `src/afi/mod.rs:365-381`, `Display`. -/
def BgpRD.display (r : BgpRD) : Txt :=
  if r.rdh >>> 16 = 1 then
    dec ((r.rdh >>> 8) &&& 0xff).toNat ++ '.' :: dec (r.rdh &&& 0xff).toNat ++ '.' :: dec ((r.rdl >>> 24) &&& 0xff).toNat ++
      '.' :: dec ((r.rdl >>> 16) &&& 0xff).toNat ++ ':' :: dec (r.rdl &&& 0xffff).toNat
  else dec r.rdh.toNat ++ ':' :: dec r.rdl.toNat

/-- `src/afi/mod.rs:339-356`, `FromStr`. -/
def BgpRD.parse (s : Txt) : Option BgpRD :=
  match split (· = ':') s with
  | [] => none
  | [a] => do some ⟨← parseU 32 a, 0⟩
  | a :: b :: _ => do
    let h ← parseU 32 a
    let l ← parseU 32 b
    some ⟨h, l⟩

/-! ## Prefixes -/

/-- `src/afi/ipv4.rs:198-202`, `Display`. -/
def BgpAddrV4.display (x : BgpAddrV4) : Txt := showV4 x.addr ++ '/' :: dec x.prefixlen.toNat

/-- `src/afi/ipv4.rs:169-186`, `FromStr`. -/
def BgpAddrV4.parse (s : Txt) : Option BgpAddrV4 :=
  match split (· = '/') s with
  | [] => none
  | [a] => do some ⟨← parseV4 a, 32⟩
  | a :: b :: _ => do some ⟨← parseV4 a, (parseU 8 b).getD 32⟩

/-- `src/afi/ipv6.rs:207-211`, `Display`. -/
def BgpAddrV6.display (x : BgpAddrV6) : Txt := showV6 x.addr ++ '/' :: dec x.prefixlen.toNat

/-- `src/afi/ipv6.rs:178-195`, `FromStr`. -/
def BgpAddrV6.parse (s : Txt) : Option BgpAddrV6 :=
  match split (· = '/') s with
  | [] => none
  | [a] => do some ⟨← parseV6 a, 128⟩
  | a :: b :: _ => do some ⟨← parseV6 a, (parseU 8 b).getD 128⟩

/-- `src/afi/mac.rs:67-80`, `Display`; `Debug` (`81-93`) is the same. -/
def MacAddress.display (m : MacAddress) : Txt :=
  hex2 m.m5.toNat ++ ':' :: hex2 m.m4.toNat ++ ':' :: hex2 m.m3.toNat ++ ':' :: hex2 m.m2.toNat ++ ':' :: hex2 m.m1.toNat ++
    ':' :: hex2 m.m0.toNat

/-- The loop of `FromStr`, `src/afi/mac.rs:100-105`: `mac` and `cnt`. -/
def MacAddress.parseLoop : Txt → U64 → Nat → U64 × Nat
  | [], mac, cnt => (mac, cnt)
  | c :: cs, mac, cnt =>
    match toDigit 16 c with
    | some d => parseLoop cs ((mac <<< 4) ||| BitVec.ofNat 64 d) (cnt + 1)
    | none => parseLoop cs mac cnt

/-- `src/afi/mac.rs:94-111`, `FromStr`. -/
def MacAddress.parse (s : Txt) : Option MacAddress :=
  let (mac, cnt) := parseLoop s 0 0
  if cnt < 1 then none else some (fromU64 mac)

/-- `src/afi/mac.rs:220-224`, `Display`. -/
def BgpAddrMac.display (x : BgpAddrMac) : Txt := x.addr.display ++ '/' :: dec x.prefixlen.toNat

/-- `src/afi/mac.rs:202-219`, `FromStr`. -/
def BgpAddrMac.parse (s : Txt) : Option BgpAddrMac :=
  match split (· = '/') s with
  | [] => none
  | [a] => do some ⟨← MacAddress.parse a, 48⟩
  | a :: b :: _ => do some ⟨← MacAddress.parse a, (parseU 8 b).getD 48⟩

/-- `src/afi/mod.rs:114-122`, `Display`. -/
def BgpNet.display : BgpNet → Txt
  | .V4 x => x.display
  | .V6 x => x.display
  | .MAC x => x.display

/-- `src/afi/mod.rs:101-113`, `FromStr`. -/
def BgpNet.parse (s : Txt) : Option BgpNet :=
  match BgpAddrV4.parse s with
  | some a => some (.V4 a)
  | none =>
    match BgpAddrV6.parse s with
    | some a => some (.V6 a)
    | none => do some (.MAC (← BgpAddrMac.parse s))

/-- `src/afi/mdt.rs:112-116`, `Display`. -/
def BgpMdtV4.display (x : BgpMdtV4) : Txt := x.addr.display ++ '@' :: showV4 x.group

/-- `src/afi/mdt.rs:47-60`, `FromStr`. -/
def BgpMdtV4.parse (s : Txt) : Option BgpMdtV4 :=
  match split (· = '@') s with
  | [a, b] => do
    let addr ← BgpAddrV4.parse a
    let group ← parseV4 b
    some ⟨addr, group⟩
  | _ => none

/-- `src/afi/mdt.rs:213-217`, `Display`. -/
def BgpMdtV6.display (x : BgpMdtV6) : Txt := x.addr.display ++ '@' :: showV6 x.group

/-- `src/afi/mdt.rs:148-161`, `FromStr`. -/
def BgpMdtV6.parse (s : Txt) : Option BgpMdtV6 :=
  match split (· = '@') s with
  | [a, b] => do
    let addr ← BgpAddrV6.parse a
    let group ← parseV6 b
    some ⟨addr, group⟩
  | _ => none

/-! ## Communities -/

/-- `src/message/attributes/community.rs:184-199`, `Display`. -/
def BgpCommunity.display (x : BgpCommunity) : Txt :=
  if x.value = 0xffffff01 then "no_export".toList
  else if x.value = 0xffffff02 then "no_advertise".toList
  else if x.value = 0xffffff03 then "no_export_subconfed".toList
  else if x.value = 0xffffff04 then "nopeer".toList
  else dec ((x.value >>> 16).setWidth 16 : U16).toNat ++ ':' :: dec ((x.value &&& 0xffff).setWidth 16 : U16).toNat

/-- `src/message/attributes/community.rs:200-223`, `FromStr`. The last case, three or more parts, parses the whole text as a
number, which fails because of the colons; it is kept as in the code. -/
def BgpCommunity.parse (s : Txt) : Option BgpCommunity :=
  if s = "no_export".toList ∨ s = "noexport".toList ∨ s = "no-export".toList then some ⟨0xffffff01⟩
  else if s = "no_advertise".toList ∨ s = "no-advertise".toList then some ⟨0xffffff02⟩
  else if s = "no_export_subconfed".toList then some ⟨0xffffff03⟩
  else if s = "nopeer".toList ∨ s = "no-peer".toList then some ⟨0xffffff04⟩
  else match split (· = ':') (trim s) with
    | [] => none
    | [a] => do some ⟨← parseU 32 a⟩
    | [a, b] => do
      let h ← parseU 16 a
      let l ← parseU 16 b
      some ⟨(h.setWidth 32 <<< 16) ||| l.setWidth 32⟩
    | _ => do some ⟨← parseU 32 s⟩

/-- `src/message/attributes/community.rs:267-279`, `FromStr` of a list: the parts that parse. -/
def BgpCommunityList.parse (s : Txt) : Option BgpCommunityList :=
  some ⟨setOf BgpCommunity.lt
    ((split (fun c => c = ',' || c = ' ' || c = '\t') s).filterMap BgpCommunity.parse)⟩

end Zbgp
