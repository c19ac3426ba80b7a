import Verif.Model.Value
import Verif.Types
import Mathlib.Data.List.Forall2
/-
Specifications used by the properties of `items`, `containers` and the setters, in terms of
Python values.
-/
namespace HP.Spec

/-- the value is a positive integer (`True` is the integer 1 in Python) -/
def IsPosInt (v : PyVal) (n : Nat) : Prop := 0 < n ∧ (v = .int n ∨ (v = .bool true ∧ n = 1))

/-- the value is a dict with exactly the two keys given, and positive integer values -/
def IsSize (widthKey lengthKey : String) (v : PyVal) (d : Dim) : Prop :=
  ∃ a b, (v = .dict [(.str widthKey, a), (.str lengthKey, b)] ∨
          v = .dict [(.str lengthKey, b), (.str widthKey, a)]) ∧
    IsPosInt a d.w ∧ IsPosInt b d.l

/-- the value is a non-empty dict from strings to sizes; `sizes` are its entries in order -/
def IsSizes (widthKey lengthKey : String) (v : PyVal) (sizes : List (String × Dim)) : Prop :=
  ∃ es : List (PyVal × PyVal), v = .dict es ∧ es ≠ [] ∧
    List.Forall₂ (fun e s => e.1 = .str s.1 ∧ IsSize widthKey lengthKey e.2 s.2) es sizes

/-- the names of the point classes -/
def pointNames : List String := ["A", "B", "C", "D", "A_", "B_", "B__", "A__", "E", "F"]

/-- the value is a tuple of different names of point classes -/
def IsStrategy (v : PyVal) (names : List String) : Prop :=
  v = .tuple (names.map .str) ∧ names.Nodup ∧ ∀ n ∈ names, n ∈ pointNames

end HP.Spec
