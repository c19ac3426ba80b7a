import Verif.Model.Settings
/-
Model of ItemsManipulationMixin: mixins.py 970-1063.
-/
namespace HP

/-- the plain dict `{"w": w, "l": l}` (or `"W"`, `"L"`) that `deepcopy()` produces for one
structure, structures.py 197-205 -/
def SKind.encode (k : SKind) (d : Dim) : PyVal :=
  .dict [(.str k.width, .int d.w), (.str k.length, .int d.l)]

/-- a structure as the plain dict of dicts that `deepcopy()` produces, structures.py 197-205 -/
def SKind.encodeAll (k : SKind) (d : PyDict String Dim) : PyVal :=
  .dict (d.map (fun p => (.str p.1, k.encode p.2)))

/-- the sorting criterion `by`, mixins.py 1049-1061; `none`: NotImplementedError -/
def sortKey? (A : Arith) (by_ : PyVal) : Option (Dim → Rat) :=
  if by_.eqStr "area" then some (fun d => ((d.w * d.l : Nat) : Rat))
  else if by_.eqStr "perimeter" then some (fun d => ((d.w * 2 + d.l * 2 : Nat) : Rat))
  else if by_.eqStr "longest_side_ratio" then some (fun d => A.quot (max d.w d.l) (min d.w d.l))
  else none

/-- `[key, id] < [key', id']` (language semantics of comparing lists) -/
def keyLt (x y : Rat × String) : Bool :=
  if x.1 = y.1 then strLt x.2 y.2 else decide (x.1 < y.1)

/-- insertion before the first element that is not smaller -/
def insertKey (a : Rat × String) : List (Rat × String) → List (Rat × String)
  | [] => [a]
  | b :: l => if keyLt b a then b :: insertKey a l else a :: b :: l

/-- `xs.sort()`: stable sorting (language semantics) -/
def sortAsc (xs : List (Rat × String)) : List (Rat × String) := xs.foldr insertKey []

/-- `xs.sort(reverse=reverse)`: reversed order, keeping the order of equal elements -/
def pySort (xs : List (Rat × String)) (reverse : Bool) : List (Rat × String) :=
  if reverse then (sortAsc xs.reverse).reverse else sortAsc xs

/-- the items `items[id]` for the sorted ids, mixins.py 1063 (`items[el[1]]` never fails: the
ids come from `items`) -/
def pickItems (items : PyDict String Dim) (ids : List String) : PyDict String Dim :=
  ids.filterMap (fun id => (PyDict.find? items id).map (fun d => (id, d)))

/-- `sort_items(sorting_by)`, mixins.py 1021-1063; `none` is `sorting_by=None`. A
`sorting_by` that is not a pair is not modelled. -/
def Inst.sortItems (A : Arith) (sortingBy : Option (PyVal × Bool)) (i : Inst) :
    Inst × Except PyErr Unit :=
  match sortingBy with
  | none => (i, .ok ())
  | some (by_, reverse) =>
    match sortKey? A by_ with
    | none => (i, .error .notImplementedError)
    | some f =>
      let sorted := pySort (i.items.map (fun p => (f p.2, p.1))) reverse
      i.assign .items (SKind.items.encodeAll (pickItems i.items (sorted.map (·.2))))

/-- the loops of `orient_items`, mixins.py 1009-1019: `turn w l` tells whether an item is
turned -/
def Inst.orientLoop (turn : Nat → Nat → Bool) : List String → Inst → Inst × Except PyErr Unit
  | [], i => (i, .ok ())
  | id :: ids, i =>
    match PyDict.find? i.items id with
    | none => (i, .error .keyError)
    | some d =>
      if turn d.w d.l then
        match i.setDim .items (.str id) (.str "w") (.int d.l) with
        | (i, .error e) => (i, .error e)
        | (i, .ok ()) =>
          match i.setDim .items (.str id) (.str "l") (.int d.w) with
          | (i, .error e) => (i, .error e)
          | (i, .ok ()) => Inst.orientLoop turn ids i
      else Inst.orientLoop turn ids i

/-- `orient_items(orientation)`, mixins.py 975-1019 -/
def Inst.orientItems (orientation : PyVal) (i : Inst) : Inst × Except PyErr Unit :=
  if orientation.isNone then (i, .ok ())
  else if !i.rotation then (i, .ok ())
  else if orientation.eqStr "wide" then
    Inst.orientLoop (fun w l => decide (l > w)) (PyDict.keys i.items) i
  else if orientation.eqStr "long" then
    Inst.orientLoop (fun w l => decide (l < w)) (PyDict.keys i.items) i
  else (i, .ok ())

end HP
