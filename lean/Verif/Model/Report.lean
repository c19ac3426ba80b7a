import Verif.Model.Instance
/-
Model of `log_solution` (mixins.py 628-671) and `create_figure` (mixins.py 821-963): what they
report and draw, not the text formatting.
-/
namespace HP

/-- one container in the log, mixins.py 649-664 -/
structure ContLog where
  id : String
  width : Nat
  length : Nat
  /-- `total_items_area` -/
  itemsArea : Nat
  /-- `max_height`, only in strip packing -/
  maxHeight : Option Nat
  deriving DecidableEq, Repr

/-- the log: number of items stored, of all items, containers, remaining items -/
structure SolutionLog where
  stored : Nat
  total : Nat
  containers : List ContLog
  remaining : List String
  deriving DecidableEq, Repr

/-- sum of `w * l` over the items of a container, mixins.py 653-655 -/
def itemsArea (m : PyDict String Rect) : Nat := (m.map (fun p => p.2.w * p.2.l)).sum

/-- the loop over the containers, mixins.py 649-664; `.../(W*L)` raises ZeroDivisionError -/
def logContainers (i : Inst) : PyDict String Dim → Except PyErr (List ContLog)
  | [] => .ok []
  | (cid, c) :: cs => do
    let l ← i.getHeight cid
    let m ← PyDict.getE i.solution cid
    if c.w * l = 0 then .error .zeroDivisionError
    else do
      let rest ← logContainers i cs
      return ⟨cid, c.w, l, itemsArea m, if i.strip then some (stackOf m) else none⟩ :: rest

/-- `log_solution()`, mixins.py 633-671; `none`: nothing solved, a warning only.  `len(_items)`
is not 0 (C36). -/
def Inst.logSolution (i : Inst) : Except PyErr (Option SolutionLog) :=
  if i.solution.isEmpty then .ok none
  else if i.items.length = 0 then .error .zeroDivisionError
  else do
    let cs ← logContainers i i.containers
    let placed := i.solution.flatMap (fun c => PyDict.keys c.2)
    return some ⟨(i.solution.map (fun c => c.2.length)).sum, i.items.length, cs,
      (PyDict.keys i.items).filter (fun id => !placed.contains id)⟩

/-! ### figures -/

/-- a rectangle of a figure: corners, label and the index of its colour -/
structure Shape where
  x0 : Nat
  y0 : Nat
  x1 : Nat
  y1 : Nat
  label : Option String
  color : Option Nat
  deriving DecidableEq, Repr

/-- a figure of one container -/
structure Figure where
  title : String
  /-- ranges of the axes are [-2, W + 2] and [-2, L + 2] -/
  width : Nat
  length : Nat
  shapes : List Shape
  deriving DecidableEq, Repr

/-- length of ITEMS_COLORS, constants.py 10-1011 -/
def colorsNum : Nat := 1000

/-- the rectangles of the items, mixins.py 902-914; `colorgen(i)` raises IndexError (mixins.py
807-812).  The traces of 915-922 repeat the corners and are not modelled. -/
def drawItems : Nat → List (String × Rect) → Except PyErr (List Shape)
  | _, [] => .ok []
  | n, (id, r) :: rest =>
    if n < colorsNum then do
      let l ← drawItems (n + 1) rest
      return ⟨r.x, r.y, r.x + r.w, r.y + r.l, some id, some n⟩ :: l
    else .error .indexError

/-- the figure of a container, mixins.py 866-934 -/
def drawContainer (i : Inst) (cid : String) (c : Dim) : Except PyErr Figure := do
  let l ← i.getHeight cid
  let m ← PyDict.getE i.solution cid
  let items ← drawItems 0 m
  return ⟨cid, c.w, l, items ++ [⟨0, 0, c.w, l, none, none⟩]⟩

/-- What `create_figure` does for one container: a figure, the file it is written to (path,
file name) and whether it is shown -/
structure Drawn where
  figure : Figure
  file : Option (String × String)
  shown : Bool
  deriving DecidableEq, Repr

/-- text of a value in an f-string: only needed for strings -/
def PyVal.text : PyVal → String
  | .str s => s
  | .none => "None"
  | _ => "?"

/-- `export` of one figure, mixins.py 936-961: directory and file name (`export` is a non-empty
dict).  `writes d f` tells whether writing the file succeeds; every exception in this block
becomes a FigureExportError. `none`: a type that is neither html nor image writes nothing. -/
def exportFile (writes : String → String → Bool) (ex : List (PyVal × PyVal)) (cid : String) :
    Except PyErr (Option (String × String)) :=
  let ty := (PyVal.get? ex "type").getD (.str "html")
  match PyVal.get? ex "path" with
  | some (.str path) =>
    let name := ((PyVal.get? ex "file_name").getD (.str "")).text
    if ty.eqStr "html" then
      let f := name ++ "__" ++ cid ++ ".html"
      if writes path f then .ok (some (path, f)) else .error (.figureExportError "FIGURE_EXPORT")
    else if ty.eqStr "image" then
      match PyVal.get? ex "format" with
      | some fmt =>
        let f := name ++ "__" ++ cid ++ "." ++ fmt.text
        if writes path f then .ok (some (path, f)) else .error (.figureExportError "FIGURE_EXPORT")
      | none => .error (.figureExportError "FIGURE_EXPORT")
    else .ok none
  | _ => .error (.figureExportError "FIGURE_EXPORT")

/-- export of one figure for any `export` value, mixins.py 936-961 -/
def exportOne (writes : String → String → Bool) (ex : PyVal) (cid : String) :
    Except PyErr (Option (String × String)) :=
  if !ex.truthy then .ok none
  else
    match ex with
    | .dict d => exportFile writes d cid
    | _ => .error (.figureExportError "FIGURE_EXPORT")

/-- the loop over the containers, mixins.py 863-963 -/
def drawAll (writes : String → String → Bool) (i : Inst) (ex : PyVal) (show_ : Bool) :
    PyDict String Dim → Except PyErr (List Drawn)
  | [] => .ok []
  | (cid, c) :: cs => do
    let fig ← drawContainer i cid c
    let f ← exportOne writes ex cid
    let rest ← drawAll writes i ex show_ cs
    return ⟨fig, f, show_⟩ :: rest

/-- `create_figure(show)`, mixins.py 821-963; the empty list: nothing drawn (a warning only).
`figure` settings that are not a dict raise AttributeError. -/
def Inst.createFigure (writes : String → String → Bool) (show_ : Bool) (i : Inst) :
    Except PyErr (List Drawn) :=
  if i.solution.isEmpty then .ok []                                              -- 840-842
  else if !i.plotlyInstalled then .error (.settingsError "PLOTLY_NOT_INSTALLED") -- 844-845
  else if !i.plotlyOk then .error (.settingsError "PLOTLY_VERSION")              -- 847-848
  else
    match i.settings.asDict? with
    | none => .error .attributeError
    | some st =>
      match (PyVal.get? st "figure").getD (.dict []) with                        -- 855
      | .dict fig =>
        let ex := PyVal.getD fig "export"
        let shown := (PyVal.getD fig "show").truthy || show_
        if !shown && ex.isNone then .ok []                                       -- 859-861
        else drawAll writes i ex shown i.containers
      | _ => .error .attributeError

/-- the parts of a path separated by `/`, without empty parts and `.` (POSIX `pathlib`
normalisation of `export_path / name`, mixins.py 939-957) -/
def pathParts (cs : List Char) : List (List Char) :=
  (cs.splitOn '/').filter (fun p => !(p.isEmpty || p == ['.']))

/-- the file that `export_path / name` denotes; `name` does not begin with `/` (it begins with
the file name setting or `__`) -/
def filePath (dir name : String) : List (List Char) :=
  pathParts dir.toList ++ pathParts name.toList

end HP
