import Verif.Model.Machine
/-
The Python objects behind `problem.items`, `problem.containers` and their entries.

`problem.items` returns the `Items` object itself (heuristics.py 107-109), `problem.items["a"]` the
`Dimensions` object (`UserDict.__getitem__`).  A user can keep them, and copy them with
`copy.copy`; `problem.items = ...`, `sort_items` and `hypersearch` create new objects and leave
the old ones alive.  Every such object keeps a reference to the problem and resets its attributes
when edited (structures.py 75-80, 116-119, 175-176, 183, 193-195, 230-232).

The model of `Model/Machine.lean` has only the current contents.  Here the objects have
identities (numbers), and methods can be called on any of them, current or not.
-/
namespace HP

/-- a `Dimensions` object bound to the problem, structures.py 33-76: `proper_keys` (given by the
kind of structure it was made for) and `data` -/
structure DimObj where
  kind : SKind
  val : Dim

/-- an `Items` or `Containers` object bound to the problem, structures.py 125-156: its class and
`data`, which maps ids to (the numbers of) `Dimensions` objects -/
structure StructObj where
  kind : SKind
  entries : PyDict String Nat

/-- The problem object with the structures that exist.  Objects `0 .. nd - 1` and `0 .. ns - 1`
exist.  The contents of `_items` and `_containers` are in the objects: the fields `items` and
`containers` of `inst` are not used. -/
structure World where
  dims : Nat → DimObj
  nd : Nat
  structs : Nat → StructObj
  ns : Nat
  /-- the object `_items` refers to -/
  its : Nat
  /-- the object `_containers` refers to -/
  cont : Nat
  /-- the other attributes of the problem -/
  inst : Inst

namespace World

/-- the object `problem.items` / `problem.containers` is, heuristics.py 107-109, 121-123 -/
def ptr (w : World) : SKind → Nat
  | .items => w.its
  | .containers => w.cont

/-- `data` of an `Items` / `Containers` object -/
def entries (w : World) (r : Nat) : PyDict String Nat := (w.structs r).entries

/-- the sizes in an `Items` / `Containers` object -/
def content (w : World) (r : Nat) : PyDict String Dim :=
  (w.entries r).map (fun p => (p.1, (w.dims p.2).val))

/-- the problem as the methods of the problem see it, when they read `_items` and `_containers` -/
def view (w : World) : Inst :=
  { w.inst with containers := w.content w.cont, items := w.content w.its }

/-- `Dimensions(...)`, structures.py 41-73: the new object is number `w.nd` -/
def newDim (k : SKind) (d : Dim) (w : World) : World :=
  { w with dims := fun r => if r = w.nd then ⟨k, d⟩ else w.dims r, nd := w.nd + 1 }

/-- `reset_instance_attrs` of a `Dimensions` object, structures.py 78-80 -/
def resetSol (w : World) : World := { w with inst := w.inst.resetSol }

/-- `reset_instance_attrs` of structure object `r`, structures.py 193-195 (Items) and 230-232
(Containers: the number of containers becomes the length of this object) -/
def resetAttrs (r : Nat) (w : World) : World :=
  match (w.structs r).kind with
  | .items => w.resetSol
  | .containers => { w with inst := { w.inst.resetSol with containersNum := (w.entries r).length } }

/-- changed `data` of structure object `r` -/
def setEntries (r : Nat) (e : PyDict String Nat) (w : World) : World :=
  { w with structs := fun s => if s = r then ⟨(w.structs r).kind, e⟩ else w.structs s }

/-- `s[id] = v` on structure object `r`, structures.py 158-176 -/
def setKey (r : Nat) (id v : PyVal) (w : World) : World × Except PyErr Unit :=
  if (w.structs r).kind = .containers && w.inst.strip then (w, .error (.containersError "STRIP_PACK_ONLY"))
  else
    match id.asStr? with
    | none => (w, .error ((w.structs r).kind.error "ID_TYPE"))
    | some s =>
      match mkDims (w.structs r).kind v with
      | .error e => (w, .error e)
      | .ok d =>
        (((w.newDim (w.structs r).kind d).setEntries r (PyDict.insert (w.entries r) s w.nd)).resetAttrs r, .ok ())

/-- `del s[key]` on structure object `r`, structures.py 178-183 -/
def delKey (r : Nat) (key : PyVal) (w : World) : World × Except PyErr Unit :=
  if (w.entries r).length = 1 then (w, .error ((w.structs r).kind.error "CANT_DELETE_STRUCTURE"))
  else
    match lookupKey (w.entries r) key with
    | .error e => (w, .error e)
    | .ok s => ((w.setEntries r (PyDict.erase (w.entries r) s.1)).resetAttrs r, .ok ())

/-- changed `data` of `Dimensions` object `r` -/
def setVal (r : Nat) (d : Dim) (w : World) : World :=
  { w with dims := fun s => if s = r then ⟨(w.dims r).kind, d⟩ else w.dims s }

/-- `d[key] = v` on `Dimensions` object `r`, structures.py 93-119 -/
def setDim (r : Nat) (key v : PyVal) (w : World) : World × Except PyErr Unit :=
  if (w.dims r).kind = .containers && w.inst.strip then (w, .error (.containersError "STRIP_PACK_ONLY"))
  else if !key.hashable then (w, .error .typeError)
  else if key.eqStr (w.dims r).kind.width then
    match v.posInt? with
    | some x => ((w.setVal r { (w.dims r).val with w := x }).resetSol, .ok ())
    | none => (w, .error (.dimensionsError "DIMENSION_VALUE"))
  else if key.eqStr (w.dims r).kind.length then
    match v.posInt? with
    | some x => ((w.setVal r { (w.dims r).val with l := x }).resetSol, .ok ())
    | none => (w, .error (.dimensionsError "DIMENSION_VALUE"))
  else (w, .error (.dimensionsError "DIMENSIONS_KEYS"))

/-! ### methods inherited from `UserDict` / `MutableMapping` -/

/-- `s.pop(key[, default])` -/
def popKey (r : Nat) (key : PyVal) (hasDefault : Bool) (w : World) : World × Except PyErr Unit :=
  match lookupKey (w.entries r) key with
  | .error .keyError => (w, if hasDefault then .ok () else .error .keyError)
  | .error e => (w, .error e)
  | .ok _ => w.delKey r key

/-- `s.popitem()` -/
def popItem (r : Nat) (w : World) : World × Except PyErr Unit :=
  match w.entries r with
  | [] => (w, .error .keyError)
  | (s, _) :: _ => w.delKey r (.str s)

/-- the loop of `s.clear()`, see `Inst.clearLoop` -/
def clearLoop (r : Nat) : Nat → World → World × Except PyErr Unit
  | 0, w => (w, .error .outOfFuel)
  | n + 1, w =>
    match w.popItem r with
    | (w, .ok ()) => clearLoop r n w
    | (w, .error .keyError) => (w, .ok ())
    | (w, .error e) => (w, .error e)

/-- `s.clear()` -/
def clear (r : Nat) (w : World) : World × Except PyErr Unit :=
  clearLoop r ((w.entries r).length + 1) w

/-- `s.update(dict)` -/
def update (r : Nat) : List (PyVal × PyVal) → World → World × Except PyErr Unit
  | [], w => (w, .ok ())
  | (id, v) :: rest, w =>
    match w.setKey r id v with
    | (w, .ok ()) => update r rest w
    | (w, .error e) => (w, .error e)

/-- `s.setdefault(key, default)` -/
def setDefault (r : Nat) (key dflt : PyVal) (w : World) : World × Except PyErr Unit :=
  match lookupKey (w.entries r) key with
  | .ok _ => (w, .ok ())
  | .error .keyError => w.setKey r key dflt
  | .error e => (w, .error e)

/-- `d.update(dict)` on a `Dimensions` object -/
def updateDim (r : Nat) : List (PyVal × PyVal) → World → World × Except PyErr Unit
  | [], w => (w, .ok ())
  | (key, v) :: rest, w =>
    match w.setDim r key v with
    | (w, .ok ()) => updateDim r rest w
    | (w, .error e) => (w, .error e)

/-- `s.copy()` on an `Items` / `Containers` object: `UserDict.copy` makes an empty copy and updates
it with the entries of `s`; `__setitem__` (structures.py 158-176) gets `Dimensions` objects, which
are not `dict`s -/
def copyErr (r : Nat) (w : World) : PyErr :=
  if (w.structs r).kind = .containers && w.inst.strip then .containersError "STRIP_PACK_ONLY"
  else .dimensionsError "DIMENSIONS_TYPE"

/-- `d.copy()` on a `Dimensions` object: `UserDict.copy` makes an empty copy and assigns the two
entries to it with `__setitem__` (structures.py 93-119), which resets the attributes of the
problem.  In strip packing the second assignment to a container's copy raises. -/
def copyDim (r : Nat) (w : World) : World × Except PyErr Unit :=
  if (w.dims r).kind = .containers && w.inst.strip then
    (w.resetSol, .error (.containersError "STRIP_PACK_ONLY"))
  else ((w.newDim (w.dims r).kind (w.dims r).val).resetSol, .ok ())

/-- `copy.copy(d)`, `UserDict.__copy__`: another `Dimensions` object with the same data, bound to
the same problem -/
def shallowDim (r : Nat) (w : World) : World := w.newDim (w.dims r).kind (w.dims r).val

/-- a new structure object, number `w.ns` -/
def newStruct (k : SKind) (e : PyDict String Nat) (w : World) : World :=
  { w with structs := fun s => if s = w.ns then ⟨k, e⟩ else w.structs s, ns := w.ns + 1 }

/-- `copy.copy(s)`, `UserDict.__copy__`: another object of the same class with a copy of `data`,
so with the same `Dimensions` objects, bound to the same problem -/
def shallowStruct (r : Nat) (w : World) : World := w.newStruct (w.structs r).kind (w.entries r)

/-! ### the problem's own methods -/

/-- the loop of `AbstractStructureSet.__init__`, structures.py 153-156: a `Dimensions` object for
every entry -/
def newDims (k : SKind) : PyDict String Dim → World → World × PyDict String Nat
  | [], w => (w, [])
  | (s, d) :: rest, w =>
    ((newDims k rest (w.newDim k d)).1, (s, w.nd) :: (newDims k rest (w.newDim k d)).2)

/-- `Items(d, problem)` / `Containers(d, problem)` for valid contents `d`, structures.py 142-156 -/
def build (k : SKind) (d : PyDict String Dim) (w : World) : World :=
  (newDims k d w).1.newStruct k (newDims k d w).2

/-- `problem.items = v` / `problem.containers = v`, heuristics.py 111-113, 125-130.  Objects made
before an exception are unreachable, and left out. -/
def assign (k : SKind) (v : PyVal) (w : World) : World × Except PyErr Unit :=
  if k = .containers && w.inst.strip then (w, .error (.containersError "STRIP_PACK_ONLY"))
  else
    let r := buildStructure k v
    let w := if r.1 then w.resetSol else w
    match r.2 with
    | .error e => (w, .error e)
    | .ok d =>
      match k with
      | .items => ({ w.build k d with its := w.ns }, .ok ())
      | .containers =>
        ({ w.build k d with cont := w.ns, inst := { w.inst with containersNum := d.length } }, .ok ())

/-- `sort_items(sorting_by)`, mixins.py 1021-1063: it ends with an assignment to `self.items` -/
def sortItems (A : Arith) (sortingBy : Option (PyVal × Bool)) (w : World) : World × Except PyErr Unit :=
  match sortingBy with
  | none => (w, .ok ())
  | some (by_, reverse) =>
    match sortKey? A by_ with
    | none => (w, .error .notImplementedError)
    | some f =>
      let items := w.content w.its
      let sorted := pySort (items.map (fun p => (f p.2, p.1))) reverse
      w.assign .items (SKind.items.encodeAll (pickItems items (sorted.map (·.2))))

/-- the loops of `orient_items`, mixins.py 1009-1019: they assign to the entries of the current
`Dimensions` objects -/
def orientLoop (turn : Nat → Nat → Bool) : List String → World → World × Except PyErr Unit
  | [], w => (w, .ok ())
  | id :: ids, w =>
    match PyDict.find? (w.entries w.its) id with
    | none => (w, .error .keyError)
    | some r =>
      let d := (w.dims r).val
      if turn d.w d.l then
        match w.setDim r (.str "w") (.int d.l) with
        | (w, .error e) => (w, .error e)
        | (w, .ok ()) =>
          match w.setDim r (.str "l") (.int d.w) with
          | (w, .error e) => (w, .error e)
          | (w, .ok ()) => orientLoop turn ids w
      else orientLoop turn ids w

/-- `orient_items(orientation)`, mixins.py 975-1019 -/
def orientItems (orientation : PyVal) (w : World) : World × Except PyErr Unit :=
  if orientation.isNone then (w, .ok ())
  else if !w.inst.rotation then (w, .ok ())
  else if orientation.eqStr "wide" then
    orientLoop (fun x l => decide (l > x)) (PyDict.keys (w.entries w.its)) w
  else if orientation.eqStr "long" then
    orientLoop (fun x l => decide (l < x)) (PyDict.keys (w.entries w.its)) w
  else (w, .ok ())

/-- `hypersearch(...)`, heuristics.py 565-634: the search changes no structure object -/
def hypersearch (A : Arith) (h : HSArgs) (w : World) : World × Outcome :=
  match w.sortItems A h.sortingBy with
  | (w, .error e) => (w, .raised e)
  | (w, .ok ()) =>
    match w.orientItems h.orientation with
    | (w, .error e) => (w, .raised e)
    | (w, .ok ()) => ({ w with inst := (w.view.search A h).1 }, (w.view.search A h).2)

/-- a call whose effect and outcome are known -/
def outcome (r : World × Except PyErr Unit) : World × Outcome := (r.1, .of r.2)

/-- a method of the problem that changes no structure object -/
def attrs (A : Arith) (w : World) (o : Op) : World × Outcome :=
  ({ w with inst := (step A w.view o).1 }, (step A w.view o).2)

/-- a method of `problem.items[id]` / `problem.containers[id]` -/
def onEntry (w : World) (k : SKind) (id : PyVal)
    (f : Nat → World → World × Except PyErr Unit) : World × Outcome :=
  match lookupKey (w.entries (w.ptr k)) id with
  | .error e => (w, .raised e)
  | .ok (_, r) => outcome (f r w)

/-- the operations of `Model/Machine.lean`, called on the problem, on `problem.items`,
`problem.containers` and on their entries -/
def call (A : Arith) (w : World) : Op → World × Outcome
  | .assign k v => outcome (w.assign k v)
  | .setKey k id v => outcome (w.setKey (w.ptr k) id v)
  | .delKey k key => outcome (w.delKey (w.ptr k) key)
  | .setDim k id key v => w.onEntry k id (fun r w => w.setDim r key v)
  | .delDim k id => w.onEntry k id (fun _ w => (w, .error (.dimensionsError "CANT_DELETE")))
  | .popKey k key d => outcome (w.popKey (w.ptr k) key d)
  | .popItem k => outcome (w.popItem (w.ptr k))
  | .clear k => outcome (w.clear (w.ptr k))
  | .update k es => outcome (w.update (w.ptr k) es)
  | .updateDim k id es => w.onEntry k id (fun r w => w.updateDim r es)
  | .setDefault k key v => outcome (w.setDefault (w.ptr k) key v)
  | .sortItems s => outcome (w.sortItems A s)
  | .orientItems o => outcome (w.orientItems o)
  | .hypersearch h => w.hypersearch A h
  | o => w.attrs A o

end World

/-- methods of an `Items` / `Containers` object -/
inductive SMeth where
  | setItem (id v : PyVal)
  | delItem (key : PyVal)
  | pop (key : PyVal) (hasDefault : Bool)
  | popitem
  | clear
  | update (entries : List (PyVal × PyVal))
  | setdefault (key v : PyVal)
  | copy

/-- methods of a `Dimensions` object -/
inductive DMeth where
  | setItem (key v : PyVal)
  | delItem
  | update (entries : List (PyVal × PyVal))
  | copy
  | pop (key : PyVal) (hasDefault : Bool)
  | popitem
  | clear
  | setdefault (key v : PyVal)

/-- What a user can do with the problem and with the objects got from it, now or earlier.  Objects
are given by their numbers. -/
inductive WOp where
  /-- an operation of `Model/Machine.lean`, through the problem -/
  | call (o : Op)
  /-- a method of an `Items` / `Containers` object -/
  | onStruct (r : Nat) (m : SMeth)
  /-- a method of a `Dimensions` object -/
  | onDims (r : Nat) (m : DMeth)
  /-- `copy.copy` of an `Items` / `Containers` object -/
  | copyStruct (r : Nat)
  /-- `copy.copy` of a `Dimensions` object -/
  | copyDims (r : Nat)

/-- the object exists -/
def WOp.Exists (w : World) : WOp → Prop
  | .call _ => True
  | .onStruct r _ => r < w.ns
  | .onDims r _ => r < w.nd
  | .copyStruct r => r < w.ns
  | .copyDims r => r < w.nd

namespace World

/-- a method call on a structure object, structures.py 158-195, 230-232 -/
def onStruct (w : World) (r : Nat) : SMeth → World × Outcome
  | .setItem id v => outcome (w.setKey r id v)
  | .delItem key => outcome (w.delKey r key)
  | .pop key d => outcome (w.popKey r key d)
  | .popitem => outcome (w.popItem r)
  | .clear => outcome (w.clear r)
  | .update es => outcome (w.update r es)
  | .setdefault key v => outcome (w.setDefault r key v)
  | .copy => (w, .raised (w.copyErr r))

/-- `d.pop(key[, default])` on a `Dimensions` object: `MutableMapping.pop` reads the entry and then
deletes it, which is refused (structures.py 121-122) -/
def popDim (k : SKind) (key : PyVal) (hasDefault : Bool) : Except PyErr Unit :=
  if !key.hashable then .error .typeError
  else if key.eqStr k.width || key.eqStr k.length then .error (.dimensionsError "CANT_DELETE")
  else if hasDefault then .ok () else .error .keyError

/-- `d.setdefault(key, v)` on a `Dimensions` object: `MutableMapping.setdefault` reads the entry, and
assigns only if there is none -/
def setDefaultDim (r : Nat) (key v : PyVal) (w : World) : World × Except PyErr Unit :=
  if !key.hashable then (w, .error .typeError)
  else if key.eqStr (w.dims r).kind.width || key.eqStr (w.dims r).kind.length then (w, .ok ())
  else w.setDim r key v

/-- a method call on a `Dimensions` object, structures.py 93-122; `popitem` and `clear` (of
`MutableMapping`) begin with the deletion of an entry -/
def onDims (w : World) (r : Nat) : DMeth → World × Outcome
  | .setItem key v => outcome (w.setDim r key v)
  | .delItem => (w, .raised (.dimensionsError "CANT_DELETE"))
  | .update es => outcome (w.updateDim r es)
  | .copy => outcome (w.copyDim r)
  | .pop key hasDefault => (w, .of (World.popDim (w.dims r).kind key hasDefault))
  | .popitem => (w, .raised (.dimensionsError "CANT_DELETE"))
  | .clear => (w, .raised (.dimensionsError "CANT_DELETE"))
  | .setdefault key v => outcome (w.setDefaultDim r key v)

/-- one operation -/
def step (A : Arith) (w : World) : WOp → World × Outcome
  | .call o => w.call A o
  | .onStruct r m => w.onStruct r m
  | .onDims r m => w.onDims r m
  | .copyStruct r => (w.shallowStruct r, .ok)
  | .copyDims r => (w.shallowDim r, .ok)

/-- the objects right after the construction of the problem, heuristics.py 36-91, 194-210: the
containers are built before the items -/
def ofInst (i : Inst) : World :=
  let w : World := ⟨fun _ => ⟨.items, ⟨0, 0⟩⟩, 0, fun _ => ⟨.items, []⟩, 0, 1, 0, i⟩
  (w.build .containers i.containers).build .items i.items

end World

/-- the worlds that can be reached: a problem is constructed, then anything is done with it and
with the objects got from it -/
inductive WReach (A : Arith) : World → Prop where
  | new {E : Env} {containers items settings stripWidth : PyVal} {i : Inst} :
      mkInst E containers items settings stripWidth = .ok i → WReach A (World.ofInst i)
  | step {w : World} (o : WOp) : WReach A w → o.Exists w → WReach A (w.step A o).1

/-- an edit of a `Containers` object that is not the problem's current one -/
def WOp.EditsOldContainers (w : World) : WOp → Prop
  | .onStruct r _ => (w.structs r).kind = .containers ∧ r ≠ w.cont
  | _ => False

/-- the worlds that can be reached without editing `Containers` objects other than the problem's
current one -/
inductive WReachCur (A : Arith) : World → Prop where
  | new {E : Env} {containers items settings stripWidth : PyVal} {i : Inst} :
      mkInst E containers items settings stripWidth = .ok i → WReachCur A (World.ofInst i)
  | step {w : World} (o : WOp) : WReachCur A w → o.Exists w → ¬ o.EditsOldContainers w →
      WReachCur A (w.step A o).1

end HP
