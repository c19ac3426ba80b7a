import Verif.Model.Construct
/-
Subclasses that override `calculate_objective_value` (mixins.py 19-20, 69, 490-498), the value of one placement.
The class attributes `max_obj_value` and `init_obj_value` (66-67) are not read anywhere: `_construct_solution` has parameters
of the same names with defaults 1 and 0 (352-353) and `_solve` does not pass them (610-620).
Simplification: the overriding function returns a number, does not raise and only reads its arguments.
-/
namespace HP

/-- the same arithmetic, except that sums are 0: with it the value of a container stays 0 and no container is closed before
all points are used up.  Not part of the code; used to state what an objective can change. -/
def Arith.idle (A : Arith) : Arith := { A with add := fun _ _ => 0 }

/-- `calculate_objective_value(w, l, W, L, Xo, Yo, container_coords)` -/
abbrev Objective := Nat → Nat → Nat → Nat → Nat → Nat → Grid → Rat

/-- `default_objective_value_calculator`, mixins.py 19-20 -/
def Objective.default (A : Arith) : Objective := fun w l W L _ _ _ => A.div (w * l) (W * L)

/-- mixins.py 407-517 with the overriding function in line 490 -/
def handlePointO (V : Objective) (P : CParams) (s : CState) (pt : Pt) : Except PyErr CState := do
  let hit ← findFit P.rot P.W P.L pt.x pt.y s.grid s.items s.ids
  match hit with
  | none => return s
  | some (id, d, rotated) =>
    let w := if rotated then d.l else d.w
    let l := if rotated then d.w else d.l
    let g ← fillItem s.grid pt.x pt.y w l
    let ids ← pyRemove s.ids id                                    -- 485
    let items ← PyDict.delE s.items id                             -- 486
    let obj :=                                                     -- 489-498
      if P.strip then s.obj else P.ar.add s.obj (V w l P.W P.L pt.x pt.y g)
    let gen ← generatePoints P.ar g P.W P.L pt.x pt.y w l          -- 507-517
    return { s with grid := g, ids := ids, items := items, obj := obj,
                    placed := s.placed ++ [⟨id, d, pt.x, pt.y, rotated⟩],
                    pools := s.pools.pushAll gen }

/-- One round of the while loop, mixins.py 407-524. -/
def constructStepO (V : Objective) (P : CParams) (s : CState) (pt : Pt) : Except PyErr CState := do
  let s ← handlePointO V P s pt
  let next := getCurrentPoint s.pools P.strategy                   -- 524
  return { s with cur := next.1, pools := next.2 }

/-- The `while True` loop, mixins.py 400-524, with fuel. -/
def constructLoopO (V : Objective) (P : CParams) : Nat → CState → Except PyErr CState
  | 0, _ => .error .outOfFuel
  | fuel + 1, s =>
    match s.cur with
    | none => .ok s
    | some pt =>
      if s.ids = [] ∨ s.obj ≥ 1 then .ok s
      else do constructLoopO V P fuel (← constructStepO V P s pt)

/-- `_construct_solution`, mixins.py 342-553. -/
def constructO (V : Objective) (P : CParams) (items : PyDict String Dim) : Except PyErr CResult := do
  let s ← constructLoopO V P (constructFuel items) (constructInit P items)
  constructFinish P s

/-- loop over the containers, mixins.py 596-623 -/
def solveLoopO (A : Arith) (V : Objective) (p : SolveIn) :
    PyDict String Dim → PyDict String Dim → Except PyErr (Solution × ObjVals)
  | [], _ => .ok ([], [])
  | (cid, c) :: cs, items =>
    if items = [] then do
      let (sol, ov) ← solveLoopO A V p cs items
      return ((cid, []) :: sol, (cid, 0) :: ov)
    else do
      let r ← constructO V (p.params A c) items
      let (sol, ov) ← solveLoopO A V p cs r.items
      return ((cid, r.solution) :: sol, (cid, r.obj) :: ov)

/-- `_solve(sequence)` of such a subclass, mixins.py 555-625. -/
def solveO (A : Arith) (V : Objective) (p : SolveIn) (sequence : Option (List String)) :
    Except PyErr (Solution × ObjVals) := do
  let items ← (match sequence with
    | none => Except.ok p.items
    | some s => deepcopySeq p.items s [])
  solveLoopO A V p p.containers items

end HP
