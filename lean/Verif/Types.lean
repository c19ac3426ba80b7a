/-
Plain data types shared by the model and by the specifications: no behaviour here.
-/
namespace HP

/-- A pair of dimensions: width/length of an item or a container (structures.py 33-122). -/
structure Dim where
  w : Nat
  l : Nat
  deriving DecidableEq, Repr

/-- `[Xo, Yo, w, l]`, one entry of the solution (mixins.py 546-551). -/
structure Rect where
  x : Nat
  y : Nat
  w : Nat
  l : Nat
  deriving DecidableEq, Repr

/-- A potential point `(Xo, Yo)`. -/
structure Pt where
  x : Nat
  y : Nat
  deriving DecidableEq, Repr

/-- The ten potential point classes, mixins.py 40-51. -/
inductive PClass where
  | A | B | C | D | A_ | B_ | B__ | A__ | E | F
  deriving DecidableEq, Repr

end HP
