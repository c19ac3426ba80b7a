import Verif.Model.Objects
import Verif.Model.Construct
import Verif.Model.Text
/-
`Items`, `Containers` and `Dimensions` objects that belong to no problem (`instance=None`): the
classes are exported (hyperpack/__init__.py 12, 15-28) and can be created by the user, and the
operators of `UserDict` create such objects.  The content of such an object is an ordered dict of
sizes.
-/
namespace HP
namespace Standalone

/-- `Items(v)` / `Containers(v)`, structures.py 142-156, 227-228, 322-323, with `instance=None`:
there is no problem whose solution could be reset (structures.py 75-76) -/
def mk (k : SKind) (v : PyVal) : Except PyErr (PyDict String Dim) := (buildStructure k v).2

/-- `Dimensions(v, structure)`, structures.py 41-76; `k = none` stands for any second argument
whose class is neither `Containers` nor `Items` (55-56) -/
def mkDimensions (k : Option SKind) (v : PyVal) : Except PyErr Dim :=
  match k with
  | none => .error (.dimensionsError "DIMENSIONS_REFERENCE_OBJECT")
  | some k => mkDims k v

/-- `del s[key]`, structures.py 178-183: the entry is deleted (182) before
`self.instance.obj_val_per_container = {}` (183, 193-195) fails on `None` -/
def delItem (k : SKind) (key : PyVal) (d : PyDict String Dim) : PyDict String Dim × Except PyErr Unit :=
  if d.length = 1 then (d, .error (k.error "CANT_DELETE_STRUCTURE"))
  else
    match lookupKey d key with
    | .error e => (d, .error e)
    | .ok s => (PyDict.erase d s.1, .error .attributeError)

/-- the methods of an `Items` / `Containers` object, structures.py 158-183, and those inherited from
`UserDict` / `MutableMapping` (Python standard library), as in `World.onStruct`.  `__setitem__`
begins with `self.instance._strip_pack` (170), which fails on `None`. -/
def onStruct (k : SKind) (d : PyDict String Dim) : SMeth → PyDict String Dim × Except PyErr Unit
  | .setItem _ _ => (d, .error .attributeError)
  | .delItem key => delItem k key d
  | .pop key hasDefault =>
    match lookupKey d key with
    | .error .keyError => (d, if hasDefault then .ok () else .error .keyError)
    | .error e => (d, .error e)
    | .ok _ => delItem k key d
  | .popitem =>
    match d with
    | [] => (d, .error .keyError)
    | (s, _) :: _ => delItem k (.str s) d
  | .clear =>
    -- `while True: self.popitem()`; only a KeyError ends the loop quietly, and the first round raises
    match d with
    | [] => (d, .ok ())
    | (s, _) :: _ => delItem k (.str s) d
  | .update [] => (d, .ok ())
  | .update (_ :: _) => (d, .error .attributeError)
  | .setdefault key _ =>
    match lookupKey d key with
    | .ok _ => (d, .ok ())
    | .error .keyError => (d, .error .attributeError)
    | .error e => (d, .error e)
  | .copy => (d, match d with | [] => .ok () | _ :: _ => .error .attributeError)

/-- the methods of a `Dimensions` object, structures.py 93-122: `__setitem__` begins with
`self.instance._strip_pack` (107-108) -/
def onDims (k : SKind) (d : Dim) : DMeth → Dim × Except PyErr Unit
  | .setItem _ _ => (d, .error .attributeError)
  | .delItem => (d, .error (.dimensionsError "CANT_DELETE"))
  | .update [] => (d, .ok ())
  | .update (_ :: _) => (d, .error .attributeError)
  | .copy => (d, .error .attributeError)
  | .pop key hasDefault => (d, World.popDim k key hasDefault)
  | .popitem => (d, .error (.dimensionsError "CANT_DELETE"))
  | .clear => (d, .error (.dimensionsError "CANT_DELETE"))
  | .setdefault key _ =>
    (d, if !key.hashable then .error .typeError
        else if key.eqStr k.width || key.eqStr k.length then .ok ()
        else .error .attributeError)

/-- `str(s)`, structures.py 296-310 (`self.instance._strip_pack`, 303) and 327-337 -/
def str (k : SKind) (d : PyDict String Dim) : Except PyErr (List Char) :=
  match k with
  | .items => .ok (itemsText d)
  | .containers => if d = [] then .ok (containersText false d) else .error .attributeError

end Standalone

/-- `s.deepcopy(ids_sequence)`, structures.py 197-213, of a structure of a problem or of none: a plain
dict of plain dicts -/
def deepcopyStruct (k : SKind) (d : PyDict String Dim) : Option (List String) → Except PyErr PyVal
  | none => .ok (k.encodeAll d)
  | some ids => (deepcopySeq d ids []).map k.encodeAll

/-- the other operand of `|` -/
inductive Operand where
  /-- a `dict` -/
  | dict (entries : List (PyVal × PyVal))
  /-- an `Items` or `Containers` object, of whatever problem -/
  | struct (ids : List String)
  /-- any object that is neither a `dict` nor a `UserDict` -/
  | other

/-- `s.data`: the values are `Dimensions` objects, which are not `dict`s -/
def dataEntries (ids : List String) : List (PyVal × PyVal) := ids.map (fun s => (.str s, .other 0))

/-- `s | operand`: `UserDict.__or__` (Python standard library) calls the class with the merged
dict; the new object belongs to no problem -/
def structOr (k : SKind) (d : PyDict String Dim) : Operand → Except PyErr (PyDict String Dim)
  | .dict es => Standalone.mk k (.dict (rawIor (dataEntries (PyDict.keys d)) es))
  | .struct ids => Standalone.mk k (.dict (rawIor (dataEntries (PyDict.keys d)) (dataEntries ids)))
  | .other => .error .typeError

/-- `operand | s`, `UserDict.__ror__`; `dict.__or__` does not accept a `UserDict` -/
def structRor (k : SKind) (d : PyDict String Dim) : Operand → Except PyErr (PyDict String Dim)
  | .dict es => Standalone.mk k (.dict (rawIor es (dataEntries (PyDict.keys d))))
  | .struct ids => Standalone.mk k (.dict (rawIor (dataEntries ids) (dataEntries (PyDict.keys d))))
  | .other => .error .typeError

/-- `s |= operand` on a variable (not on an attribute of a problem, for which see `Inst.ior`):
`UserDict.__ior__` writes to `data`; the content afterwards, sizes as plain dicts -/
def structIor (k : SKind) (d : PyDict String Dim) (es : List (PyVal × PyVal)) : PyVal :=
  .dict (rawIor (d.map (fun p => (.str p.1, k.encode p.2))) es)

/-- `d | operand` on a `Dimensions` object: `Dimensions(merged)` has no reference object
(structures.py 55-56) -/
def dimsOr : Operand → Except PyErr Dim
  | .other => .error .typeError
  | _ => Standalone.mkDimensions none .none

end HP
