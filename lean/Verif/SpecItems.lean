import Verif.Types
/-
Specifications used by the properties of `sort_items` and `orient_items`.
-/
namespace HP.Spec

/-- the number items are sorted by, `ratio a b` being the quotient `a / b`; `none`: not a
sorting criterion -/
def criterion (ratio : Nat → Nat → Rat) (name : String) : Option (Dim → Rat) :=
  if name = "area" then some (fun d => (d.w : Rat) * d.l)
  else if name = "perimeter" then some (fun d => 2 * ((d.w : Rat) + d.l))
  else if name = "longest_side_ratio" then some (fun d => ratio (max d.w d.l) (min d.w d.l))
  else none

/-- item `p` comes before item `q`: its number is smaller, or equal and its id is smaller
(strings are compared character by character) -/
def Before (key : Dim → Rat) (p q : String × Dim) : Prop :=
  key p.2 < key q.2 ∨ (key p.2 = key q.2 ∧ p.1 < q.1)

/-- the item turned by 90 degrees -/
def turned (d : Dim) : Dim := ⟨d.l, d.w⟩

/-- the item with its longer side as width -/
def widened (d : Dim) : Dim := if d.w < d.l then turned d else d

/-- the item with its longer side as length -/
def lengthened (d : Dim) : Dim := if d.l < d.w then turned d else d

end HP.Spec
