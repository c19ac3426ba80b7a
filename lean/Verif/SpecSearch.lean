import Verif.Spec
import Verif.Model.Construct
/-
Specifications used by the properties of the searches.  They mention `Arith` (the rounding
parameter) and nothing else of the model.
-/
namespace HP.Spec

/-- overall objective of a list of container utilizations: their sum, the last one weighted
0.7 when there are several -/
def overall (A : Arith) (vals : List Rat) : Rat :=
  if vals.length = 1 then A.sum vals
  else A.add (A.sum vals.dropLast) (A.mul07 (vals.getLast?.getD 0))

/-- rounding keeps the sign: division of naturals, sums and 0.7 * x of nonnegative numbers are
nonnegative (true of floating point arithmetic and of exact arithmetic) -/
structure NonNeg (A : Arith) : Prop where
  div : ∀ a b, 0 ≤ A.div a b
  add : ∀ x y, 0 ≤ x → 0 ≤ y → 0 ≤ A.add x y
  sum : ∀ xs : List Rat, (∀ x ∈ xs, 0 ≤ x) → 0 ≤ A.sum xs
  mul07 : ∀ x, 0 ≤ x → 0 ≤ A.mul07 x

/-- the same packing as Python dicts: the same containers in the same order, and for each
container the same entries in any order -/
def SamePacking (s t : List (String × List (String × Rect))) : Prop :=
  s.map (·.1) = t.map (·.1) ∧
  ∀ cid m, (cid, m) ∈ s → ∃ m', (cid, m') ∈ t ∧ m.Perm m'

/-- the list with the entries at positions `i` and `j` exchanged -/
def exchange (xs : List String) (i j : Nat) : List String :=
  match xs[i]?, xs[j]? with
  | some a, some b => (xs.set i b).set j a
  | _, _ => xs

end HP.Spec
