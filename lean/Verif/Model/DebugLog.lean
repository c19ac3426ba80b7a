import Verif.Model.LocalSearch
/-
Model of what `local_search(debug=True)` logs (abstract.py 68-92, 176-185; mixins.py 1169-1218): DEBUG records.
-/
namespace HP

/-- One record of `debug_local_search`, abstract.py 68-92, with the values that the text shows. -/
inductive DebugLine where
  /-- "-- no new node", 81 -/
  | noNewNode
  /-- "-- new node found", 83 -/
  | newNode
  /-- "\tnode num: {node_num}", 84 -/
  | nodeNum (n : Nat)
  /-- "\tbest obj_val: {best_obj_value}", 85 -/
  | bestValue (v : Rat)
  /-- "\tprocessed_neighbors : {processed_neighbors}\n", 86 -/
  | processed (n : Nat)
  /-- "-- out of time - exiting", 88 -/
  | outOfTime
  /-- "-- no new node found - local optima - exiting", 90 -/
  | localOptimum
  /-- "-- global optimum found - exiting", 92 -/
  | globalOptimum
  deriving DecidableEq, Repr

/-- `debug_local_search`, abstract.py 68-92, for the node with number `num` -/
def debugNode (num : Nat) (e : NodeLog) : List DebugLine :=
  [if e.found then .newNode else .noNewNode, .nodeNum num, .bestValue e.best, .processed e.processed] ++   -- 80-86
  (if e.outOfTime then [.outOfTime]                                                                      -- 87-88
   else if !e.found then [.localOptimum]                                                                 -- 89-90
   else if e.globalOpt then [.globalOptimum] else [])                                                    -- 91-92

/-- `debug_local_search` is called once per node, abstract.py 122, 176-185; `num` is the number of the next node -/
def debugNodes : Nat → List NodeLog → List DebugLine
  | _, [] => []
  | num, e :: es => debugNode num e ++ debugNodes (num + 1) es

/-- The DEBUG records of `local_search(throttle=throttle, debug=debug)`, mixins.py 1169-1218: `node_num` starts at 1
(abstract.py 108, 122), and nothing is logged without `debug` (176; the default of mixins.py 1170 is False).  Nothing of what
is computed depends on `debug`.  Simplified: the record of mixins.py 1201-1204, in hypersearch only, is left out; of a search
that raises (none of a valid problem does, C18) no records are given. -/
def Inst.debugLog (A : Arith) (clock : Nat → Rat) (start : Rat) (throttle debug : Bool) (i : Inst) : List DebugLine :=
  if debug then
    match i.localSearch A clock start throttle with
    | .ok r => debugNodes 1 r.2.log
    | .error _ => []
  else []

end HP
