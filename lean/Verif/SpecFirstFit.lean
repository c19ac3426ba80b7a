import Verif.Spec
/-
Specification of one-dimensional first fit: the items are taken in order, each goes to the first bin that has room.
-/
namespace HP.Spec

/-- a bin with a width, a capacity and the items in it, in the order in which they came -/
structure Bin where
  id : String
  width : Nat
  cap : Nat
  items : List (String × Dim)

/-- the lengths of the items in the bin together -/
def Bin.load (b : Bin) : Nat := (b.items.map (fun q => q.2.l)).sum

/-- the bin is wide enough for the item and has room for its length -/
def Bin.Takes (b : Bin) (d : Dim) : Prop := d.w ≤ b.width ∧ b.load + d.l ≤ b.cap

instance (b : Bin) (d : Dim) : Decidable (b.Takes d) := by unfold Bin.Takes; infer_instance

/-- the item goes to the first bin that takes it -/
def putFirst (q : String × Dim) : List Bin → List Bin
  | [] => []
  | b :: bs => if b.Takes q.2 then { b with items := b.items ++ [q] } :: bs else b :: putFirst q bs

/-- first fit -/
def firstFit (bins : List Bin) (items : List (String × Dim)) : List Bin :=
  items.foldl (fun bs q => putFirst q bs) bins

/-- the items one above the other at the distance `x` from the left wall, starting at height `y`, unrotated -/
def pileAt (x : Nat) : Nat → List (String × Dim) → List (String × Rect)
  | _, [] => []
  | y, (id, d) :: items => (id, ⟨x, y, d.w, d.l⟩) :: pileAt x (y + d.l) items

/-- the bins as piles on the floor, one next to the other, each `w` wide, the first one at the distance `x` from the wall -/
def standing (w : Nat) : Nat → List Bin → List (String × Rect)
  | _, [] => []
  | x, b :: bs => pileAt x 0 b.items ++ standing w (x + w) bs

/-- items of exchanged width and length side by side at the height `y`, starting at the distance `x` from the left wall -/
def rowAt (y : Nat) : Nat → List (String × Dim) → List (String × Rect)
  | _, [] => []
  | x, (id, d) :: items => (id, ⟨x, y, d.l, d.w⟩) :: rowAt y (x + d.l) items

/-- the bins as rows from the left wall, one above the other, each `t` high, the first one at the height `y` -/
def shelves (t : Nat) : Nat → List Bin → List (String × Rect)
  | _, [] => []
  | y, b :: bs => rowAt y 0 b.items ++ shelves t (y + t) bs

end HP.Spec
