import Verif.Types
/-
Specifications: what the properties of properties.jsonl say, in terms of plain data
(rectangles, sizes, lists of pairs).  Nothing here refers to the model of the code.
-/
namespace HP.Spec

/-- unit cell `(x, y)` belongs to the rectangle `[X, X+w) × [Y, Y+l)` -/
def Covers (r : Rect) (x y : Nat) : Prop :=
  r.x ≤ x ∧ x < r.x + r.w ∧ r.y ≤ y ∧ y < r.y + r.l

/-- two rectangles share no unit cell -/
def Disjoint (r s : Rect) : Prop := ∀ x y, ¬ (Covers r x y ∧ Covers s x y)

/-- every cell `s` shares with `r` lies strictly between the two ends of `s`, and `s` is one
unit high -/
def SharesOnlyMiddle (r s : Rect) : Prop :=
  ∀ x y, Covers r x y → Covers s x y → s.l = 1 ∧ s.x < x ∧ x + 1 < s.x + s.w

/-- the rectangle lies inside a `W × L` container -/
def Inside (W L : Nat) (r : Rect) : Prop := r.x + r.w ≤ W ∧ r.y + r.l ≤ L

/-- the rectangle has the size `d`, turned by 90 degrees only if `rot` allows it -/
def SizedAs (rot : Bool) (d : Dim) (r : Rect) : Prop :=
  (r.w = d.w ∧ r.l = d.l) ∨ (rot = true ∧ r.w = d.l ∧ r.l = d.w)

/-- an item that can be laid as a strip one unit high and at least three units wide -/
def LowStrip (rot : Bool) (d : Dim) : Prop :=
  (d.l = 1 ∧ 3 ≤ d.w) ∨ (rot = true ∧ d.w = 1 ∧ 3 ≤ d.l)

/-- the origin of `r` touches the bottom or left wall, or the cell directly below or
directly left of it belongs to one of the rectangles `earlier` -/
def Supported (earlier : List Rect) (r : Rect) : Prop :=
  r.x = 0 ∨ r.y = 0 ∨ ∃ q ∈ earlier, Covers q r.x (r.y - 1) ∨ Covers q (r.x - 1) r.y

/-- a rectangle could be added to the layout without overlap and inside the container -/
def FreeFor (W L : Nat) (layout : List Rect) (r : Rect) : Prop :=
  Inside W L r ∧ ∀ q ∈ layout, Disjoint r q

/-- an item of size `d` could be added with its origin at `(x, y)` in an allowed orientation -/
def CanAdd (W L : Nat) (rot : Bool) (layout : List Rect) (d : Dim) (x y : Nat) : Prop :=
  FreeFor W L layout ⟨x, y, d.w, d.l⟩ ∨ (rot = true ∧ FreeFor W L layout ⟨x, y, d.l, d.w⟩)

/-- an item of size `d` fits an empty `W × L` container in an allowed orientation -/
def FitsEmpty (W L : Nat) (rot : Bool) (d : Dim) : Prop :=
  (d.w ≤ W ∧ d.l ≤ L) ∨ (rot = true ∧ d.l ≤ W ∧ d.w ≤ L)

/-- area -/
def area (r : Rect) : Nat := r.w * r.l

/-- total area of a layout -/
def totalArea (rs : List Rect) : Nat := (rs.map area).sum

/-- height of the stack of rectangles: largest `Y + l`, 0 for an empty layout -/
def stackHeight (rs : List Rect) : Nat := rs.foldr (fun r h => max (r.y + r.l) h) 0

/-- ids are different and sizes positive -/
def ValidSizes (d : List (String × Dim)) : Prop :=
  (d.map (·.1)).Nodup ∧ ∀ p ∈ d, 0 < p.2.w ∧ 0 < p.2.l

/-- the ids of a list in order of first occurrence, without repetitions -/
def firstOcc : List String → List String
  | [] => []
  | a :: l => a :: (firstOcc l).filter (· ≠ a)

/-- the items with the ids of `s`, in the order of first occurrence in `s` -/
def reorder (items : List (String × Dim)) (s : List String) : List (String × Dim) :=
  (firstOcc s).filterMap (fun id => items.find? (fun q => q.1 == id))

/-- the items a call `solve(sequence)` packs -/
def solvedFor (items : List (String × Dim)) : Option (List String) → List (String × Dim)
  | none => items
  | some s => reorder items s

/-- all item ids in a solution, container after container -/
def placedIds (sol : List (String × List (String × Rect))) : List String :=
  sol.flatMap (fun c => c.2.map (·.1))

/-- where an item that fits the empty container is put, and how -/
def atOrigin (W L : Nat) (d : Dim) : Rect :=
  if d.w ≤ W ∧ d.l ≤ L then ⟨0, 0, d.w, d.l⟩ else ⟨0, 0, d.l, d.w⟩

instance (W L : Nat) (rot : Bool) (d : Dim) : Decidable (FitsEmpty W L rot d) := by
  unfold FitsEmpty; infer_instance

/-- `a` comes before `b` in the list -/
def Earlier (ids : List String) (a b : String) : Prop := ∃ x y z, ids = x ++ a :: y ++ b :: z

/-- the items one above the other at the left wall, starting at height `y`, unrotated -/
def pileFrom : Nat → List (String × Dim) → List (String × Rect)
  | _, [] => []
  | y, (id, d) :: items => (id, ⟨0, y, d.w, d.l⟩) :: pileFrom (y + d.l) items

end HP.Spec
