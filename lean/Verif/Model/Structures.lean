import Verif.Model.State
/-
Model of hyperpack/structures.py (Dimensions, Items, Containers) and of the setters of
BasePackingProblem and PointGenerationSolver (heuristics.py 93-175, 272-314).

Every operation returns the instance afterwards together with `.ok` or the exception: the
instance keeps the effects that happened before an exception.

`_items` and `_containers` are dictionaries of sizes.  `True` as a size is stored as the
number 1 it is equal to.
-/
namespace HP

/-- which of the two structures -/
inductive SKind where
  | containers
  | items
  deriving DecidableEq, Repr

namespace SKind

/-- WIDTH, structures.py 222, 319 -/
def width : SKind → String
  | containers => "W"
  | items => "w"

/-- LENGTH, structures.py 223, 320 -/
def length : SKind → String
  | containers => "L"
  | items => "l"

/-- ERROR_CLASS, structures.py 225, 322 -/
def error : SKind → String → PyErr
  | containers, m => .containersError m
  | items, m => .itemsError m

end SKind

/-- `isinstance(v, int) and v > 0` with the value (structures.py 90, heuristics.py 80) -/
def PyVal.posInt? (v : PyVal) : Option Nat :=
  match v.asInt? with
  | some i => if i ≤ 0 then Option.none else some i.toNat
  | Option.none => Option.none

mutual
/-- can the value be a dictionary key (language semantics): lists and dicts cannot, nor tuples
that contain one -/
def PyVal.hashable : PyVal → Bool
  | .list _ => false
  | .dict _ => false
  | .tuple l => PyVal.hashableAll l
  | _ => true
/-- all elements hashable -/
def PyVal.hashableAll : List PyVal → Bool
  | [] => true
  | v :: vs => v.hashable && PyVal.hashableAll vs
end

/-- `Dimensions.__init__`, structures.py 41-76, without the reset of the instance. The keys of
a dict are distinct, so `set(dimensions) == {width, length}` says that there are two entries
and both keys are present. All failing values raise the same error, so the order in which
they are validated does not matter. -/
def mkDims (k : SKind) (v : PyVal) : Except PyErr Dim :=
  match v.asDict? with
  | none => .error (.dimensionsError "DIMENSIONS_TYPE")                     -- 60-61
  | some d =>
    if d.isEmpty then .error (.dimensionsError "DIMENSIONS_MISSING")        -- 63-64
    else
      match PyVal.get? d k.width, PyVal.get? d k.length with
      | some w, some l =>
        if d.length = 2 then
          match w.posInt?, l.posInt? with                                   -- 71-73, 82-91
          | some w, some l => .ok ⟨w, l⟩
          | _, _ => .error (.dimensionsError "DIMENSION_VALUE")
        else .error (.dimensionsError "DIMENSIONS_KEYS")                    -- 66-67
      | _, _ => .error (.dimensionsError "DIMENSIONS_KEYS")

/-- `reset_instance_attrs` of Dimensions and of Items, structures.py 78-80, 193-195 -/
def Inst.resetSol (i : Inst) : Inst := { i with solution := [], objVals := [] }

/-- the structure `k` of the instance -/
def Inst.data (i : Inst) : SKind → PyDict String Dim
  | .containers => i.containers
  | .items => i.items

/-- the instance with another structure `k` -/
def Inst.setData (i : Inst) (k : SKind) (d : PyDict String Dim) : Inst :=
  match k with
  | .containers => { i with containers := d }
  | .items => { i with items := d }

/-- `reset_instance_attrs`, structures.py 193-195 (Items) and 230-232 (Containers) -/
def Inst.resetAttrs (i : Inst) (k : SKind) : Inst :=
  match k with
  | .containers => { i.resetSol with containersNum := i.containers.length }
  | .items => i.resetSol

/-- The loop of `AbstractStructureSet.__init__`, structures.py 153-156 with `get_dimensions`
185-191.  The first component tells whether a `Dimensions` object was created, which resets
the instance's solution (structures.py 75-76). -/
def buildEntries (k : SKind) : List (PyVal × PyVal) → PyDict String Dim → Bool →
    Bool × Except PyErr (PyDict String Dim)
  | [], acc, touched => (touched, .ok acc)
  | (id, v) :: rest, acc, touched =>
    match id.asStr? with
    | none => (touched, .error (k.error "ID_TYPE"))                         -- 188-189
    | some s =>
      match mkDims k v with
      | .error e => (touched, .error e)
      | .ok d => buildEntries k rest (PyDict.insert acc s d) true

/-- `AbstractStructureSet.__init__`, structures.py 142-156 -/
def buildStructure (k : SKind) (v : PyVal) : Bool × Except PyErr (PyDict String Dim) :=
  match v.asDict? with
  | none => (false, .error (k.error "TYPE"))
  | some d => if d.isEmpty then (false, .error (k.error "MISSING")) else buildEntries k d [] false

/-- `problem.items = v` / `problem.containers = v`, heuristics.py 111-113, 125-130 -/
def Inst.assign (k : SKind) (v : PyVal) (i : Inst) : Inst × Except PyErr Unit :=
  if k = .containers && i.strip then (i, .error (.containersError "STRIP_PACK_ONLY"))
  else
    let r := buildStructure k v
    let i := if r.1 then i.resetSol else i
    match r.2 with
    | .error e => (i, .error e)
    | .ok d =>
      match k with
      | .items => ({ i with items := d }, .ok ())
      | .containers => ({ i with containers := d, containersNum := d.length }, .ok ())

/-- `structure[id] = v`, structures.py 158-176 -/
def Inst.setKey (k : SKind) (id v : PyVal) (i : Inst) : Inst × Except PyErr Unit :=
  if k = .containers && i.strip then (i, .error (.containersError "STRIP_PACK_ONLY"))
  else
    match id.asStr? with
    | none => (i, .error (k.error "ID_TYPE"))
    | some s =>
      match mkDims k v with
      | .error e => (i, .error e)
      | .ok d => ((i.setData k (PyDict.insert (i.data k) s d)).resetAttrs k, .ok ())

/-- look up a key of a structure: KeyError, or TypeError for an unhashable key -/
def lookupKey {α : Type} (d : PyDict String α) (key : PyVal) : Except PyErr (String × α) :=
  match key.asStr? with
  | some s =>
    match PyDict.find? d s with
    | some x => .ok (s, x)
    | none => .error .keyError
  | none => .error (if key.hashable then .keyError else .typeError)

/-- `del structure[key]`, structures.py 178-183 -/
def Inst.delKey (k : SKind) (key : PyVal) (i : Inst) : Inst × Except PyErr Unit :=
  if (i.data k).length = 1 then (i, .error (k.error "CANT_DELETE_STRUCTURE"))
  else
    match lookupKey (i.data k) key with
    | .error e => (i, .error e)
    | .ok s => ((i.setData k (PyDict.erase (i.data k) s.1)).resetAttrs k, .ok ())

/-- `structure[id][key] = v`, Dimensions.__setitem__, structures.py 93-119 -/
def Inst.setDim (k : SKind) (id key v : PyVal) (i : Inst) : Inst × Except PyErr Unit :=
  match lookupKey (i.data k) id with
  | .error e => (i, .error e)
  | .ok (s, d) =>
    if k = .containers && i.strip then (i, .error (.containersError "STRIP_PACK_ONLY"))
    else if !key.hashable then (i, .error .typeError)                       -- `key not in set`
    else if key.eqStr k.width then
      match v.posInt? with
      | some w => ((i.setData k (PyDict.insert (i.data k) s { d with w := w })).resetSol, .ok ())
      | none => (i, .error (.dimensionsError "DIMENSION_VALUE"))
    else if key.eqStr k.length then
      match v.posInt? with
      | some l => ((i.setData k (PyDict.insert (i.data k) s { d with l := l })).resetSol, .ok ())
      | none => (i, .error (.dimensionsError "DIMENSION_VALUE"))
    else (i, .error (.dimensionsError "DIMENSIONS_KEYS"))

/-- `del structure[id][key]`, structures.py 121-122 (raises for every key) -/
def Inst.delDim (k : SKind) (id : PyVal) (i : Inst) : Inst × Except PyErr Unit :=
  match lookupKey (i.data k) id with
  | .error e => (i, .error e)
  | .ok _ => (i, .error (.dimensionsError "CANT_DELETE"))

/-! Inherited methods of `UserDict` / `MutableMapping` (Python standard library) -/

/-- `structure.pop(key[, default])`: `self[key]`, then `del self[key]` -/
def Inst.popKey (k : SKind) (key : PyVal) (hasDefault : Bool) (i : Inst) : Inst × Except PyErr Unit :=
  match lookupKey (i.data k) key with
  | .error .keyError => (i, if hasDefault then .ok () else .error .keyError)
  | .error e => (i, .error e)
  | .ok _ => i.delKey k key

/-- `structure.popitem()`: deletes the first key -/
def Inst.popItem (k : SKind) (i : Inst) : Inst × Except PyErr Unit :=
  match i.data k with
  | [] => (i, .error .keyError)
  | (s, _) :: _ => i.delKey k (.str s)

/-- `structure.clear()`: `popitem` until KeyError; any other exception goes through. The
number is the loop bound of the model: one call per entry and one more. -/
def Inst.clearLoop (k : SKind) : Nat → Inst → Inst × Except PyErr Unit
  | 0, i => (i, .error .outOfFuel)
  | n + 1, i =>
    match i.popItem k with
    | (j, .ok ()) => Inst.clearLoop k n j
    | (j, .error .keyError) => (j, .ok ())
    | (j, .error e) => (j, .error e)

/-- `structure.clear()` -/
def Inst.clear (k : SKind) (i : Inst) : Inst × Except PyErr Unit :=
  Inst.clearLoop k ((i.data k).length + 1) i

/-- `structure.update(dict)`: one key assignment after the other, stopping at an exception -/
def Inst.update (k : SKind) : List (PyVal × PyVal) → Inst → Inst × Except PyErr Unit
  | [], i => (i, .ok ())
  | (id, v) :: rest, i =>
    match i.setKey k id v with
    | (j, .ok ()) => Inst.update k rest j
    | (j, .error e) => (j, .error e)

/-- `structure[id].update(dict)`: one dimension assignment after the other -/
def Inst.updateDim (k : SKind) (id : PyVal) : List (PyVal × PyVal) → Inst → Inst × Except PyErr Unit
  | [], i =>
    match lookupKey (i.data k) id with
    | .error e => (i, .error e)
    | .ok _ => (i, .ok ())
  | (key, v) :: rest, i =>
    match i.setDim k id key v with
    | (j, .ok ()) => Inst.updateDim k id rest j
    | (j, .error e) => (j, .error e)

/-- `structure.setdefault(key, default)` -/
def Inst.setDefault (k : SKind) (key dflt : PyVal) (i : Inst) : Inst × Except PyErr Unit :=
  match lookupKey (i.data k) key with
  | .ok _ => (i, .ok ())
  | .error .keyError => i.setKey k key dflt
  | .error e => (i, .error e)

/-! ### heights and strategy -/

/-- `isinstance(value, int) and value >= 1` with the value, heuristics.py 144, 165 -/
def PyVal.atLeastOne? (v : PyVal) : Option Nat :=
  match v.asInt? with
  | some i => if i < 1 then Option.none else some i.toNat
  | Option.none => Option.none

/-- `problem.container_height = value`, heuristics.py 142-151 -/
def Inst.assignHeight (v : PyVal) (i : Inst) : Inst × Except PyErr Unit :=
  match v.atLeastOne? with
  | none => (i, .error (.dimensionsError "DIMENSION_VALUE"))
  | some n =>
    match i.minHeight with
    | some m =>
      if n < m then (i, .error (.containersError "STRIP_PACK_MIN_HEIGHT"))
      else ({ i with height := some n }, .ok ())
    | none => ({ i with height := some n }, .ok ())

/-- `problem.container_min_height = value`, heuristics.py 163-171; comparing with None raises
TypeError -/
def Inst.assignMinHeight (v : PyVal) (i : Inst) : Inst × Except PyErr Unit :=
  match v.atLeastOne? with
  | none => (i, .error (.dimensionsError "DIMENSION_VALUE"))
  | some n =>
    match i.height with
    | none => (i, .error .typeError)
    | some h =>
      if n > h then (i, .error (.containersError "STRIP_PACK_MIN_HEIGHT"))
      else ({ i with minHeight := some n }, .ok ())

/-- `reset_container_height()`, heuristics.py 93-105 -/
def Inst.resetHeight (i : Inst) : Inst × Except PyErr Unit :=
  if i.strip then
    match PyDict.find? i.containers stripId with
    | some c => ({ i with height := some (c.w * maxRatio), minHeight := none }, .ok ())
    | none => (i, .error .keyError)
  else (i, .ok ())

/-- name of a point class, mixins.py 40-51 -/
def PClass.name : PClass → String
  | .A => "A" | .B => "B" | .C => "C" | .D => "D" | .A_ => "A_" | .B_ => "B_"
  | .B__ => "B__" | .A__ => "A__" | .E => "E" | .F => "F"

/-- the point class with a given name -/
def PClass.ofName? (s : String) : Option PClass :=
  defaultStrategy.find? (fun c => c.name == s)

/-- the loop of the strategy setter, heuristics.py 298-308 -/
def checkStrategy : List PyVal → List PClass → Except PyErr (List PClass)
  | [], seen => .ok seen
  | v :: rest, seen =>
    match v.asStr? with
    | none => .error (.potentialPointsError "ELEMENT_TYPE")
    | some s =>
      match PClass.ofName? s with
      | none => .error (.potentialPointsError "ELEMENT_NOT_POINT")
      | some c =>
        if c ∈ seen then .error (.potentialPointsError "DUPLICATE_POINTS")
        else checkStrategy rest (seen ++ [c])

/-- `problem.potential_points_strategy = value`, heuristics.py 293-310 -/
def Inst.assignStrategy (v : PyVal) (i : Inst) : Inst × Except PyErr Unit :=
  match v.asTuple? with
  | none => (i, .error (.potentialPointsError "TYPE"))
  | some l =>
    match checkStrategy l [] with
    | .error e => (i, .error e)
    | .ok cs => ({ i with strategy := cs }, .ok ())

end HP
