import Verif.Model.Machine
/-
What is left of a call that is cut off (KeyboardInterrupt, or any other exception that arrives from
outside): the attributes and dictionary entries the call had written so far.

Every call is modelled as the list of the states after each of its writes, in the order of the
code.  A write (an attribute, an entry of a dict) happens or does not happen; reads and local
variables leave nothing behind.  Writes that change nothing because the same values were written
just before (the repeated resets while a structure is built) are listed once.  Not modelled:
`start_time`, `_current_potential_points` (debug), what an interruption does to worker processes,
and searches that fail by themselves (none does, `C27_total`).
-/
namespace HP

/-- the two writes of `reset_instance_attrs`, structures.py 78-80, 193-195 -/
def Inst.resetWrites (i : Inst) : List Inst := [{ i with objVals := [] }, i.resetSol]

/-- the writes of `reset_instance_attrs` of a structure, structures.py 193-195, 230-232 -/
def Inst.resetAttrsWrites (k : SKind) (i : Inst) : List Inst :=
  match k with
  | .items => i.resetWrites
  | .containers => i.resetWrites ++ [i.resetAttrs .containers]

/-- `problem.items = v`, `problem.containers = v`: the new structure is built, which resets the
solution for every entry (structures.py 75-76, 153-156), then it is assigned; the number of containers
after that, heuristics.py 113, 129-130 -/
def Inst.assignWrites (k : SKind) (v : PyVal) (i : Inst) : List Inst :=
  if k = .containers && i.strip then []
  else
    (if (buildStructure k v).1 then i.resetWrites else []) ++
    match (buildStructure k v).2 with
    | .error _ => []
    | .ok d =>
      let j := if (buildStructure k v).1 then i.resetSol else i
      match k with
      | .items => [{ j with items := d }]
      | .containers => [{ j with containers := d }, { j with containers := d, containersNum := d.length }]

/-- `structure[id] = v`, structures.py 158-176: creating the `Dimensions` object resets the solution,
then the entry is written, then the attributes are reset again -/
def Inst.setKeyWrites (k : SKind) (id v : PyVal) (i : Inst) : List Inst :=
  if k = .containers && i.strip then []
  else
    match id.asStr? with
    | none => []
    | some s =>
      match mkDims k v with
      | .error _ => []
      | .ok d =>
        let j := i.resetSol.setData k (PyDict.insert (i.data k) s d)
        i.resetWrites ++ [j] ++ j.resetAttrsWrites k

/-- `del structure[key]`, structures.py 178-183: the entry is removed, then the attributes are reset -/
def Inst.delKeyWrites (k : SKind) (key : PyVal) (i : Inst) : List Inst :=
  if (i.data k).length = 1 then []
  else
    match lookupKey (i.data k) key with
    | .error _ => []
    | .ok s =>
      let j := i.setData k (PyDict.erase (i.data k) s.1)
      j :: j.resetAttrsWrites k

/-- `structure[id][key] = v`, structures.py 116-119: the size is written, then the attributes are
reset -/
def Inst.setDimWrites (k : SKind) (id key v : PyVal) (i : Inst) : List Inst :=
  match lookupKey (i.data k) id with
  | .error _ => []
  | .ok (s, d) =>
    if k = .containers && i.strip then []
    else if !key.hashable then []
    else if key.eqStr k.width then
      match v.posInt? with
      | some w =>
        let j := i.setData k (PyDict.insert (i.data k) s { d with w := w })
        j :: j.resetWrites
      | none => []
    else if key.eqStr k.length then
      match v.posInt? with
      | some l =>
        let j := i.setData k (PyDict.insert (i.data k) s { d with l := l })
        j :: j.resetWrites
      | none => []
    else []

/-- `structure.pop(key[, default])` (Python standard library) -/
def Inst.popKeyWrites (k : SKind) (key : PyVal) (i : Inst) : List Inst :=
  match lookupKey (i.data k) key with
  | .error _ => []
  | .ok _ => i.delKeyWrites k key

/-- `structure.popitem()` (Python standard library) -/
def Inst.popItemWrites (k : SKind) (i : Inst) : List Inst :=
  match i.data k with
  | [] => []
  | (s, _) :: _ => i.delKeyWrites k (.str s)

/-- the loop of `structure.clear()` (Python standard library) -/
def Inst.clearLoopWrites (k : SKind) : Nat → Inst → List Inst
  | 0, _ => []
  | n + 1, i =>
    i.popItemWrites k ++
    match i.popItem k with
    | (j, .ok ()) => Inst.clearLoopWrites k n j
    | (_, .error _) => []

/-- `structure.update(dict)` (Python standard library) -/
def Inst.updateWrites (k : SKind) : List (PyVal × PyVal) → Inst → List Inst
  | [], _ => []
  | (id, v) :: rest, i =>
    i.setKeyWrites k id v ++
    match i.setKey k id v with
    | (j, .ok ()) => Inst.updateWrites k rest j
    | (_, .error _) => []

/-- `structure[id].update(dict)` (Python standard library) -/
def Inst.updateDimWrites (k : SKind) (id : PyVal) : List (PyVal × PyVal) → Inst → List Inst
  | [], _ => []
  | (key, v) :: rest, i =>
    i.setDimWrites k id key v ++
    match i.setDim k id key v with
    | (j, .ok ()) => Inst.updateDimWrites k id rest j
    | (_, .error _) => []

/-- `structure.setdefault(key, default)` (Python standard library) -/
def Inst.setDefaultWrites (k : SKind) (key dflt : PyVal) (i : Inst) : List Inst :=
  match lookupKey (i.data k) key with
  | .error .keyError => i.setKeyWrites k key dflt
  | _ => []

/-- `reset_container_height()`, heuristics.py 99-103 -/
def Inst.resetHeightWrites (i : Inst) : List Inst :=
  if i.strip then
    match PyDict.find? i.containers stripId with
    | some c => [{ i with height := some (c.w * maxRatio) },
                 { i with height := some (c.w * maxRatio), minHeight := none }]
    | none => []
  else []

/-- `_check_plotly_kaleido_versions`, mixins.py 694-718 -/
def Inst.versionWrites (E : Env) (i : Inst) : List Inst :=
  let c := i.checkVersions E
  [{ i with plotlyInstalled := false },
   { i with plotlyInstalled := false, plotlyOk := false },
   { i with plotlyInstalled := false, plotlyOk := false, kaleidoInstalled := false },
   { i with plotlyInstalled := false, plotlyOk := false, kaleidoInstalled := false, kaleidoOk := false },
   { i with plotlyInstalled := c.plotlyInstalled, plotlyOk := false, kaleidoInstalled := false, kaleidoOk := false },
   { i with plotlyInstalled := c.plotlyInstalled, plotlyOk := c.plotlyOk, kaleidoInstalled := false, kaleidoOk := false },
   { i with plotlyInstalled := c.plotlyInstalled, plotlyOk := c.plotlyOk, kaleidoInstalled := c.kaleidoInstalled,
            kaleidoOk := false },
   c]

/-- `validate_settings()`, heuristics.py 214-256, 370-408, mixins.py 694-805: `_rotation`,
`_max_time_in_seconds`, `_workers_num`, the flags about plotly and kaleido, the default file name -/
def Inst.validateWrites (E : Env) (i : Inst) : List Inst :=
  let b := i.validateBase
  [b.1] ++
  match b.2 with
  | .error _ => []
  | .ok () =>
    let h := i.validateHyper
    [{ b.1 with maxTime := h.1.maxTime }, h.1] ++
    match h.2 with
    | .error _ => []
    | .ok () => h.1.versionWrites E ++ [(h.1.validateFigure E).1]

/-- `solve(sequence)`, heuristics.py 268-270 -/
def Inst.solveWrites (A : Arith) (seq : Option (List String)) (i : Inst) : List Inst :=
  match i.solve A seq with
  | .ok j => [{ i with solution := j.solution }, j]
  | .error _ => []

/-- `extra_node_operations()`, mixins.py 1132-1137 -/
def Inst.extraWrites (i : Inst) : List Inst :=
  match i.extraNode with
  | .ok j => if i.strip then [{ i with height := j.height }, j] else []
  | .error _ => []

/-- the operations of a local search (`instOps`) on an object that remembers the states after each
write -/
def tracedOps (A : Arith) : LSOps (Inst × List Inst) (Solution × ObjVals) where
  init s := (s.1.initSolution A).map (fun r => ((r.1, s.2 ++ s.1.solveWrites A none), r.2))
  evaluate seq s := (s.1.solve A (some seq)).map (fun j => (j, s.2 ++ s.1.solveWrites A (some seq)))
  objVal s := s.1.calcObj A
  compare s new best := s.1.compareNode new best
  getSol s := s.1.getSolution
  extra s := s.1.extraNode.map (fun j => (j, s.2 ++ s.1.extraWrites))

/-- `local_search()`, mixins.py 1205-1218 -/
def Inst.localSearchWrites (A : Arith) (clock : Nat → Rat) (start : Rat) (throttle : Bool) (i : Inst) :
    List Inst :=
  let j := if i.strip then { i with heights := [i.height.getD 0] } else i
  match lsRun (tracedOps A) ⟨A, clock, start, j.maxTime⟩ (lsFuel j) (PyDict.keys j.items) throttle (j, []) with
  | .ok s =>
    (if i.strip then [j] else []) ++ s.obj.2 ++
      [{ s.obj.1 with solution := s.retained.1 },
       { s.obj.1 with solution := s.retained.1, objVals := s.retained.2 }]
  | .error _ => []

/-- the loop of `_single_process_hypersearch`, heuristics.py 470-489: the strategy, then the local
search -/
def hsLoopWrites (A : Arith) (clock : Nat → Rat) (start : Rat) (throttle : Bool) :
    List (List PClass) → HSState → List Inst
  | [], _ => []
  | st :: rest, s =>
    let i := { s.inst with strategy := st }
    i :: i.localSearchWrites A (fun k => clock (s.tick + k)) start throttle ++
    match hsStep A clock start throttle st s with
    | .ok (s', false) => hsLoopWrites A clock start throttle rest s'
    | _ => []

/-- the search of `hypersearch`, heuristics.py 461-490, 625-631 -/
def Inst.searchWrites (A : Arith) (h : HSArgs) (i : Inst) : List Inst :=
  let strategies := getStrategies h.order i.strip h.exhaustive
  if i.workers.isOne then
    match i.singleHS A (fun k => h.clock (k + 1)) (h.clock 0) h.throttle strategies, i.initSolution A with
    | .ok s, .ok r =>
      i.solveWrites A none ++
      (match r.1.calcObj A with
        | .ok best => hsLoopWrites A (fun k => h.clock (k + 1)) (h.clock 0) h.throttle strategies
            ⟨r.1, best, r.2, defaultStrategy, 0, []⟩
        | .error _ => []) ++
      [{ s.inst with solution := s.retained.1 },
       { s.inst with solution := s.retained.1, objVals := s.retained.2 }, s.finish]
    | _, _ => []
  else
    match i.multiHS h.env (h.mp A) strategies h.schedule with
    | .returned sol ov st =>
      [{ i with solution := sol }, { i with solution := sol, objVals := ov },
       { i with solution := sol, objVals := ov, bestStrategy := some st }]
    | _ => []

/-- the loops of `orient_items`, mixins.py 1009-1019: the width of an item, then its length -/
def Inst.orientLoopWrites (turn : Nat → Nat → Bool) : List String → Inst → List Inst
  | [], _ => []
  | id :: ids, i =>
    match PyDict.find? i.items id with
    | none => []
    | some d =>
      if turn d.w d.l then
        i.setDimWrites .items (.str id) (.str "w") (.int d.l) ++
        match i.setDim .items (.str id) (.str "w") (.int d.l) with
        | (_, .error _) => []
        | (i, .ok ()) =>
          i.setDimWrites .items (.str id) (.str "l") (.int d.w) ++
          match i.setDim .items (.str id) (.str "l") (.int d.w) with
          | (_, .error _) => []
          | (i, .ok ()) => Inst.orientLoopWrites turn ids i
      else Inst.orientLoopWrites turn ids i

/-- `orient_items(orientation)`, mixins.py 975-1019 -/
def Inst.orientWrites (orientation : PyVal) (i : Inst) : List Inst :=
  if orientation.isNone then []
  else if !i.rotation then []
  else if orientation.eqStr "wide" then
    Inst.orientLoopWrites (fun w l => decide (l > w)) (PyDict.keys i.items) i
  else if orientation.eqStr "long" then
    Inst.orientLoopWrites (fun w l => decide (l < w)) (PyDict.keys i.items) i
  else []

/-- `sort_items(sorting_by)`, mixins.py 1021-1063: the assignment of the sorted items -/
def Inst.sortWrites (A : Arith) (sortingBy : Option (PyVal × Bool)) (i : Inst) : List Inst :=
  match sortingBy with
  | none => []
  | some (by_, reverse) =>
    match sortKey? A by_ with
    | none => []
    | some f =>
      let sorted := pySort (i.items.map (fun p => (f p.2, p.1))) reverse
      i.assignWrites .items (SKind.items.encodeAll (pickItems i.items (sorted.map (·.2))))

/-- `hypersearch(...)`, heuristics.py 611-631 -/
def Inst.hypersearchWrites (A : Arith) (h : HSArgs) (i : Inst) : List Inst :=
  i.sortWrites A h.sortingBy ++
  match i.sortItems A h.sortingBy with
  | (_, .error _) => []
  | (j, .ok ()) =>
    j.orientWrites h.orientation ++
    match j.orientItems h.orientation with
    | (_, .error _) => []
    | (k, .ok ()) => k.searchWrites A h

/-- the states after each write of a call; calls that write one attribute at most have the state
afterwards only -/
def writes (A : Arith) (i : Inst) : Op → List Inst
  | .assign k v => i.assignWrites k v
  | .setKey k id v => i.setKeyWrites k id v
  | .delKey k key => i.delKeyWrites k key
  | .setDim k id key v => i.setDimWrites k id key v
  | .popKey k key _ => i.popKeyWrites k key
  | .popItem k => i.popItemWrites k
  | .clear k => Inst.clearLoopWrites k ((i.data k).length + 1) i
  | .update k es => Inst.updateWrites k es i
  | .updateDim k id es => Inst.updateDimWrites k id es i
  | .setDefault k key v => i.setDefaultWrites k key v
  | .resetHeight => i.resetHeightWrites
  | .settings E v => { i with settings := v } :: Inst.validateWrites E { i with settings := v }
  | .validate E => i.validateWrites E
  | .solve seq => i.solveWrites A seq
  | .localSearch clock throttle => i.localSearchWrites A (fun k => clock (k + 1)) (clock 0) throttle
  | .sortItems s => i.sortWrites A s
  | .orientItems o => i.orientWrites o
  | .hypersearch h => i.hypersearchWrites A h
  | .delDim _ _ => []
  | .delAttr _ => []
  | .height v => [(i.assignHeight v).1]
  | .minHeight v => [(i.assignMinHeight v).1]
  | .strategy v => [(i.assignStrategy v).1]
  | .editSettings v => [{ i with settings := v }]
  | .log => []
  | .figure _ _ => []

/-- the object after the call was cut off after its first `n` writes (all of them, if there are
not more) -/
def cut (A : Arith) (i : Inst) (o : Op) (n : Nat) : Inst := ((writes A i o).take n).getLastD i

/-- the instances that can be reached when calls may be cut off -/
inductive ReachCut (A : Arith) : Inst → Prop where
  | new {E : Env} {containers items settings stripWidth : PyVal} {i : Inst} :
      mkInst E containers items settings stripWidth = .ok i → ReachCut A i
  | cut {i : Inst} (o : Op) (n : Nat) : ReachCut A i → ReachCut A (cut A i o n)

end HP
