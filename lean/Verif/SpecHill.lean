import Verif.SpecClimb
/-
Specification of a hill climbing search with a time limit, whose packings depend on a height that shrinks during
the search.  No reference to the model.
-/
namespace HP.Spec

/-- The rules of a search over sequences of `α` with results in `R`. -/
structure HillRules (α R : Type) where
  /-- `pack h x r`: the sequence `x`, packed at the height `h`, gives the result `r` -/
  pack : Nat → List α → R → Prop
  /-- `better r' r`: a neighbour with the result `r'` replaces a node with the result `r` -/
  better : R → R → Prop
  /-- the height after moving, at height `h`, to a node with the result `r` -/
  lower : Nat → R → Nat
  /-- number of neighbours that are tried at every node -/
  limit : Nat
  /-- `late k`: the clock, when read after evaluation number `k` (from 0), shows that the time is up -/
  late : Nat → Prop

/-- a node of the search: the sequence, its result, the height now in force, and all heights so far -/
structure HillNode (α R : Type) where
  seq : List α
  result : R
  height : Nat
  heights : List Nat

/-- the node after moving to the sequence `y` with the result `r` -/
def HillNode.moved {α R : Type} (a : HillNode α R) (K : HillRules α R) (y : List α) (r : R) : HillNode α R :=
  { seq := y, result := r, height := K.lower a.height r, heights := a.heights ++ [K.lower a.height r] }

/-- none of the sequences is better than the node -/
def Refused {α R : Type} (K : HillRules α R) (a : HillNode α R) (ys : List (List α)) : Prop :=
  ∀ y ∈ ys, ∀ r, K.pack a.height y r → ¬ K.better r a.result

/-- `Hill K n a m z`: the search that has done `n` evaluations and is at the node `a` ends at the node `z` after
`m` evaluations.  The neighbours of the node are tried one by one, in the order of `neighbours`; the first one that
is better becomes the node. -/
inductive Hill {α R : Type} (K : HillRules α R) : Nat → HillNode α R → Nat → HillNode α R → Prop where
  /-- no better neighbour among those tried, which are all there are to try, or the time is up after the last one -/
  | rest {n : Nat} {a : HillNode α R} {pre post : List (List α)} :
      (neighbours a.seq).take K.limit = pre ++ post → Refused K a pre →
      (∀ k, k + 1 < pre.length → ¬ K.late (n + k)) →
      (post = [] ∨ (pre ≠ [] ∧ K.late (n + pre.length - 1))) →
      Hill K n a (n + pre.length) a
  /-- a better neighbour is found, and the time is up -/
  | last {n : Nat} {a : HillNode α R} {pre post : List (List α)} {y : List α} {r : R} :
      (neighbours a.seq).take K.limit = pre ++ y :: post → Refused K a pre →
      (∀ k, k < pre.length → ¬ K.late (n + k)) →
      K.pack a.height y r → K.better r a.result → K.late (n + pre.length) →
      Hill K n a (n + pre.length + 1) (a.moved K y r)
  /-- a better neighbour is found, in time, and the search goes on from there -/
  | move {n m : Nat} {a z : HillNode α R} {pre post : List (List α)} {y : List α} {r : R} :
      (neighbours a.seq).take K.limit = pre ++ y :: post → Refused K a pre →
      (∀ k, k < pre.length → ¬ K.late (n + k)) →
      K.pack a.height y r → K.better r a.result → ¬ K.late (n + pre.length) →
      Hill K (n + pre.length + 1) (a.moved K y r) m z →
      Hill K n a m z

end HP.Spec
