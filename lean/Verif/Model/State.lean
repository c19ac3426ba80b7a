import Verif.Model.Construct
import Verif.Model.Value
/-
The attributes of a `HyperPack` instance, and `solve()`.
-/
namespace HP

/-- STRIP_PACK_CONT_ID, heuristics.py 34 -/
def stripId : String := "strip-pack-container"

/-- STRIP_PACK_INIT_HEIGHT, heuristics.py 33 -/
def stripInitHeight : Nat := 2 ^ 100

/-- MAX_W_L_RATIO, heuristics.py 32 -/
def maxRatio : Nat := 10

/-- Attributes of a `HyperPack` object (heuristics.py 36-91, 194-210, 357-368).
`_heights_history` exists from the start in bin packing and from the first local search in
strip packing; the model always has it. `bestStrategy` is `none` until the first
hypersearch (the attribute does not exist then). -/
structure Inst where
  /-- `_strip_pack` -/
  strip : Bool
  /-- `_containers` -/
  containers : PyDict String Dim
  /-- `_items` -/
  items : PyDict String Dim
  /-- `_container_height` (None in bin packing unless assigned) -/
  height : Option Nat
  /-- `_container_min_height` -/
  minHeight : Option Nat
  /-- `_heights_history` -/
  heights : List Nat
  /-- `_settings` -/
  settings : PyVal
  /-- `_rotation` -/
  rotation : Bool
  /-- `_max_time_in_seconds` -/
  maxTime : Int
  /-- `_workers_num` -/
  workers : PyVal
  /-- `_plotly_installed`, `_plotly_ver_ok`, `_kaleido_installed`, `_kaleido_ver_ok` -/
  plotlyInstalled : Bool
  plotlyOk : Bool
  kaleidoInstalled : Bool
  kaleidoOk : Bool
  /-- `_potential_points_strategy` -/
  strategy : List PClass
  /-- `_containers_num` -/
  containersNum : Nat
  /-- `solution` -/
  solution : Solution
  /-- `obj_val_per_container` -/
  objVals : ObjVals
  /-- `best_strategy` -/
  bestStrategy : Option (Option (List PClass))

/-- what `_solve` reads.  In strip packing `_container_height` is never None (proved as an
invariant of reachable states, `Reach.height`), so the default 0 is never used. -/
def Inst.solveIn (i : Inst) : SolveIn :=
  { containers := i.containers, items := i.items, strategy := i.strategy,
    rotation := i.rotation, strip := i.strip, height := i.height.getD 0 }

/-- `solve(sequence)`, heuristics.py 263-270: the two attributes are assigned only when
`_solve` returned. -/
def Inst.solve (A : Arith) (i : Inst) (seq : Option (List String)) : Except PyErr Inst := do
  let r ← HP.solve A i.solveIn seq
  return { i with solution := r.1, objVals := r.2 }

/-- `_copy_objective_val_per_container`, mixins.py 1072-1077 -/
def copyObjVals (ov : ObjVals) : ObjVals := ov.map (fun p => (p.1, p.2))

/-- inner comprehension of `_deepcopy_solution`, mixins.py 1083-1087: the entries of one
container, in the order of the items -/
def copyCont (items : PyDict String Dim) (m : PyDict String Rect) : PyDict String Rect :=
  (PyDict.keys items).filterMap (fun id => (PyDict.find? m id).map (fun r => (id, r)))

/-- outer comprehension of `_deepcopy_solution`, mixins.py 1079-1089: for every container
of the instance (KeyError if the solution lacks it) -/
def copySolution (items : PyDict String Dim) (sol : Solution) :
    List String → Except PyErr Solution
  | [] => .ok []
  | cid :: cids => do
    let m ← PyDict.getE sol cid
    let rest ← copySolution items sol cids
    return (cid, copyCont items m) :: rest

/-- `_deepcopy_solution(solution)`, mixins.py 1079-1089 -/
def Inst.deepcopySolution (i : Inst) (sol : Solution) : Except PyErr Solution :=
  copySolution i.items sol (PyDict.keys i.containers)

/-- `get_solution()`, mixins.py 1100-1104 -/
def Inst.getSolution (i : Inst) : Except PyErr (Solution × ObjVals) := do
  let s ← i.deepcopySolution i.solution
  return (s, copyObjVals i.objVals)

/-- `calculate_obj_value()`, mixins.py 1106-1123.  IndexError for `containers_obj_vals[-1]`
of an empty tuple. -/
def Inst.calcObj (A : Arith) (i : Inst) : Except PyErr Rat :=
  let vals := i.objVals.map (·.2)
  if i.containersNum = 1 then .ok (A.sum vals)
  else
    match vals.getLast? with
    | none => .error .indexError
    | some u => .ok (A.add (A.sum vals.dropLast) (A.mul07 u))

/-- `get_init_solution()`, mixins.py 1125-1130 -/
def Inst.initSolution (A : Arith) (i : Inst) : Except PyErr (Inst × (Solution × ObjVals)) := do
  let i ← i.solve A none
  let r ← i.getSolution
  return (i, r)

/-- height of the items stack: `max([Yo + l ...] or [0])`, structures.py 261-264, 283-286,
mixins.py 660-663 -/
def stackOf (m : PyDict String Rect) : Nat :=
  m.foldr (fun p h => max (p.2.y + p.2.l) h) 0

/-- `Containers._get_height(cont_id)`, structures.py 234-272 -/
def Inst.getHeight (i : Inst) (cid : String) : Except PyErr Nat :=
  if i.strip then
    if i.solution = [] then do
      let c ← PyDict.getE i.containers cid
      return c.w * maxRatio
    else do
      let m ← PyDict.getE i.solution cid
      match i.minHeight with
      | some h => return max (stackOf m) h
      | none => return stackOf m
  else do
    let c ← PyDict.getE i.containers cid
    return c.l

/-- `Containers._set_height()`, structures.py 274-294 -/
def Inst.setHeight (i : Inst) : Except PyErr Inst :=
  if i.solution = [] then do
    let c ← PyDict.getE i.containers stripId
    return { i with height := some (c.w * maxRatio) }
  else do
    let m ← PyDict.getE i.solution stripId
    match i.minHeight with
    | some h => return { i with height := some (max (stackOf m) h) }
    | none => return { i with height := some (stackOf m) }

/-- `extra_node_operations()`, mixins.py 1132-1137 -/
def Inst.extraNode (i : Inst) : Except PyErr Inst :=
  if i.strip then do
    let i ← i.setHeight
    return { i with heights := i.heights ++ [i.height.getD 0] }
  else return i

/-- `compare_node(new, best)`, mixins.py 1139-1166 -/
def Inst.compareNode (i : Inst) (new best : Rat) : Except PyErr Bool :=
  let better := decide (new > best)
  if !i.strip then .ok better
  else
    match i.minHeight with
    | some _ => .ok better
    | none => do
      let m ← PyDict.getE i.solution stripId
      return decide (m.length = i.items.length) && better

end HP
