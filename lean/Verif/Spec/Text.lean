import Verif.Model.Text

/-!
# Texts

What the texts of the library's values are, written with Lean's own strings, and texts made of parts.
-/

namespace Zbgp.Spec

/-- Dotted decimal. -/
def v4String (a : IPv4) : String :=
  s!"{a.toNat / 2 ^ 24}.{a.toNat / 2 ^ 16 % 256}.{a.toNat / 2 ^ 8 % 256}.{a.toNat % 256}"

/-- A text made of parts with one separator between them: the first part, then each separator with the part behind it. -/
def sepText : Txt → List (Char × Txt) → Txt
  | t, [] => t
  | t, (s, u) :: r => t ++ s :: sepText u r

/-- The separators of a community list. -/
def listSeparators : List Char := [',', ' ', '\t']

/-- The hexadecimal digits. -/
def hexDigits : List Char := "0123456789abcdefABCDEF".toList

/-- The number written by the hexadecimal digits of a text, everything else skipped. -/
def hexNumber (s : Txt) : Nat :=
  ((s.filter (· ∈ hexDigits)).map fun c =>
    if c.isDigit then c.toNat - '0'.toNat else if c.isLower then c.toNat - 'a'.toNat + 10 else c.toNat - 'A'.toNat + 10).foldl
      (fun n d => n * 16 + d) 0

end Zbgp.Spec
