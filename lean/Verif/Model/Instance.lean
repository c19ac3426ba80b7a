import Verif.Model.HyperSearch
/-
The constructor of `HyperPack`: heuristics.py 36-91, 194-210, 357-368.
-/
namespace HP

/-- the containers the constructor creates and the initial `_container_height`,
`BasePackingProblem.__init__` 36-44 and `_check_strip_pack` 70-91, heuristics.py. The error
order is: width of the strip, then containers, then items. -/
def initContainers (containers stripWidth : PyVal) :
    Except PyErr (Bool × PyDict String Dim × Option Nat) :=
  if stripWidth.isNone then                                                  -- 72-76
    match (buildStructure .containers containers).2 with
    | .ok d => .ok (false, d, none)
    | .error e => .error e
  else
    match stripWidth.posInt? with
    | none => .error (.dimensionsError "DIMENSION_VALUE")                    -- 78-79
    | some w =>
      if containers.isNone then
        .ok (true, [(stripId, ⟨w, stripInitHeight⟩)], some (maxRatio * w))   -- 80-91
      else .error (.containersError "STRIP_PACK_ONLY")                       -- 41-42

/-- the object before its settings are validated, heuristics.py 194-210, 357-368. The strategy
and the number of containers are assigned right after the validation, which does not read
them; `_rotation`, `_max_time_in_seconds` and `_workers_num` are None until then. -/
def rawInst (strip : Bool) (containers items : PyDict String Dim) (height : Option Nat)
    (settings : PyVal) : Inst where
  strip := strip
  containers := containers
  items := items
  height := height
  minHeight := none
  heights := []
  settings := if settings.truthy then settings else .dict []
  rotation := false
  maxTime := 0
  workers := .none
  plotlyInstalled := false
  plotlyOk := false
  kaleidoInstalled := false
  kaleidoOk := false
  strategy := defaultStrategy
  containersNum := containers.length
  solution := []
  objVals := []
  bestStrategy := none

/-- `HyperPack(containers, items, settings, strip_pack_width=stripWidth)`; an omitted argument
is None -/
def mkInst (E : Env) (containers items settings stripWidth : PyVal) : Except PyErr Inst :=
  match initContainers containers stripWidth with
  | .error e => .error e
  | .ok (strip, cs, height) =>
    match (buildStructure .items items).2 with
    | .error e => .error e
    | .ok its =>
      match Inst.validateSettings E (rawInst strip cs its height settings) with
      | (_, .error e) => .error e
      | (i, .ok ()) => .ok i

end HP
