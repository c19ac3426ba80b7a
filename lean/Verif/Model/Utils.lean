import Verif.Model.ItemsManip
/-
Model of hyperpack/utils.py: `generate_problem_data`.
-/
namespace HP

/-- the keyword parameters, utils.py 5-10, 26-28, 50-52 (numbers that are not negative) -/
structure GenParams where
  containersNum : Nat := 1
  containersLength : Nat := 50
  containersWidth : Nat := 50
  itemsNum : Nat := 30
  itemsLength : Nat := 3
  itemsWidth : Nat := 5

/-- what the generator depends on: `round(x * 0.1)`, `round(x * 0.6)` and `randint` (the k-th
call with its two bounds) -/
structure GenEnv where
  round01 : Nat → Nat
  round06 : Nat → Nat
  randint : Nat → Int → Int → Int

/-- lower and upper bound: `value - deviation`, `value + deviation` -/
def genBounds (v dev : Nat) : Int × Int := ((v : Int) - dev, (v : Int) + dev)

/-- bounds of the containers' widths and lengths, utils.py 30-40 -/
def GenParams.contBounds (G : GenEnv) (P : GenParams) : (Int × Int) × (Int × Int) :=
  (genBounds P.containersWidth (G.round01 P.containersWidth),
   genBounds P.containersLength (G.round01 P.containersLength))

/-- bounds of the items' widths and lengths, utils.py 54-64; both are around the items' width -/
def GenParams.itemBounds (G : GenEnv) (P : GenParams) : (Int × Int) × (Int × Int) :=
  (genBounds P.itemsWidth (max (G.round06 P.itemsLength) 1),
   genBounds P.itemsWidth (max (G.round06 P.itemsWidth) 1))

/-- `{"prefix-0": {...}, "prefix-1": {...}, ...}` from the entry `n` on, utils.py 42-47, 65-71;
`k` calls of `randint` have been made -/
def genEntries (G : GenEnv) (pre wKey lKey : String) (b : (Int × Int) × (Int × Int)) :
    Nat → Nat → Nat → List (PyVal × PyVal)
  | 0, _, _ => []
  | m + 1, n, k =>
    (.str (pre ++ toString n),
      .dict [(.str wKey, .int (G.randint k b.1.1 b.1.2)),
             (.str lKey, .int (G.randint (k + 1) b.2.1 b.2.2))]) ::
    genEntries G pre wKey lKey b m (n + 1) (k + 2)

/-- `generate_problem_data(**kwargs)`, utils.py 13-78: containers and items.  (`randint` never
raises: the upper bound is not below the lower one.) -/
def generateProblem (G : GenEnv) (P : GenParams) : PyVal × PyVal :=
  (.dict (genEntries G "container-" "W" "L" (P.contBounds G) P.containersNum 0 0),
   .dict (genEntries G "item-" "w" "l" (P.itemBounds G) (P.itemsNum * P.containersNum) 0
     (2 * P.containersNum)))

end HP
