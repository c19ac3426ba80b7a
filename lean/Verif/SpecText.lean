import Verif.Spec
import Mathlib.Algebra.Order.Ring.Rat
/-
Specification of text output: lines, numbers in decimal notation.
-/
namespace HP.Spec

/-- the lines of a text -/
def lines (s : List Char) : List (List Char) := s.splitOn '\n'

/-- a string of one line -/
def OneLine (s : List Char) : Prop := '\n' ∉ s

/-- `s` is the decimal notation of `n / 10000` with four decimals -/
def Decimal4 (s : List Char) (n : Nat) : Prop :=
  ∃ b : List Char, s = (toString (n / 10000)).toList ++ '.' :: b ∧ b.length = 4 ∧
    (∀ c ∈ b, c.isDigit = true) ∧ Nat.ofDigitChars 10 b 0 = n % 10000

/-- `s` is a percentage with four decimals saying how much `a` is of `b`: correct up to half a unit
of the last decimal (plus a relative error below 2^-51), and if `b` is below 1999999 it is 100.0000
only for all of `b`, and 0.0000 only for nothing -/
def Percent (s : List Char) (a b : Nat) : Prop :=
  ∃ n : Nat, Decimal4 s n ∧
    |(n : Rat) / 10000 - 100 * a / b| ≤ 1 / 20000 + (100 * a / b) / 2 ^ 51 ∧
    (b < 1999999 → (n = 1000000 ↔ a = b) ∧ (n = 0 ↔ a = 0))

/-- the four lines of an entry -/
def entryLines (p : String × Dim) : List (List Char) :=
  [("  - id: " ++ p.1).toList, ("    width: " ++ toString p.2.w).toList,
   ("    length: " ++ toString p.2.l).toList, []]

/-- the three lines of the container in strip packing -/
def stripLines (p : String × Dim) : List (List Char) :=
  [("  - id: " ++ p.1).toList, ("    width: " ++ toString p.2.w).toList, []]

end HP.Spec
