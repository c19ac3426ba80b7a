import Verif.Model.Report
/-
What `create_figure` leaves in the file system and in the browser, also when it stops half-way.
-/
namespace HP

/-- what a file contains: the figures written by plotly, or anything else -/
inductive FileContent where
  /-- there is no such file -/
  | missing
  /-- not written by `create_figure`, or written incompletely -/
  | other (n : Nat)
  /-- an html page with the figure -/
  | page (f : Figure)
  /-- an image with the figure: format, width and height -/
  | image (f : Figure) (format : String) (width height : PyVal)

/-- the files by their paths.  Paths with `..` and links that lead to the same file count as
different files. -/
abbrev Disk := List (List Char) → FileContent

/-- a file gets a new content -/
def Disk.set (k : Disk) (p : List (List Char)) (c : FileContent) : Disk := fun q => if q = p then c else k q

/-- the outside world during one call: writing a file (directory, name) succeeds (`none`) or raises
an exception and leaves something there; showing the figure of a container succeeds or raises -/
structure FigIO where
  write : String → String → Option FileContent
  shows : String → Bool

/-- the files, and the figures shown so far -/
structure FigWorld where
  disk : Disk
  shown : List Figure

/-- how the call ends: an exception of `fig.show` is passed on as it is -/
inductive FigEnd where
  | ok
  | raised (e : PyErr)
  | showFailed
  deriving DecidableEq

/-- `fig.write_html`, `fig.write_image`, mixins.py 942-957; every exception becomes a
FigureExportError (959-961) -/
def writeFigure (io : FigIO) (dir name : String) (c : FileContent) (k : Disk) : Disk × Option PyErr :=
  match io.write dir name with
  | none => (k.set (filePath dir name) c, none)
  | some rest => (k.set (filePath dir name) rest, some (.figureExportError "FIGURE_EXPORT"))

/-- `export.get("width") or 1700`, mixins.py 948-949 -/
def imageSize (ex : List (PyVal × PyVal)) (key : String) : PyVal :=
  match PyVal.get? ex key with
  | some v => if v.truthy then v else .int 1700
  | none => .int 1700

/-- the export of one figure, mixins.py 936-961 (`exportFile` with the file that is written) -/
def exportDisk (io : FigIO) (ex : List (PyVal × PyVal)) (cid : String) (fig : Figure) (k : Disk) :
    Disk × Option PyErr :=
  let ty := (PyVal.get? ex "type").getD (.str "html")
  match PyVal.get? ex "path" with
  | some (.str path) =>
    let name := ((PyVal.get? ex "file_name").getD (.str "")).text
    if ty.eqStr "html" then writeFigure io path (name ++ "__" ++ cid ++ ".html") (.page fig) k
    else if ty.eqStr "image" then
      match PyVal.get? ex "format" with
      | some fmt => writeFigure io path (name ++ "__" ++ cid ++ "." ++ fmt.text)
          (.image fig fmt.text (imageSize ex "width") (imageSize ex "height")) k
      | none => (k, some (.figureExportError "FIGURE_EXPORT"))
    else (k, none)
  | _ => (k, some (.figureExportError "FIGURE_EXPORT"))

/-- export of one figure for any `export` value, mixins.py 936-961 -/
def exportOneDisk (io : FigIO) (ex : PyVal) (cid : String) (fig : Figure) (k : Disk) : Disk × Option PyErr :=
  if !ex.truthy then (k, none)
  else
    match ex with
    | .dict d => exportDisk io d cid fig k
    | _ => (k, some (.figureExportError "FIGURE_EXPORT"))

/-- the loop over the containers, mixins.py 863-963: the figure is made, exported, then shown -/
def drawAllDisk (io : FigIO) (i : Inst) (ex : PyVal) (show_ : Bool) :
    PyDict String Dim → FigWorld → FigWorld × FigEnd
  | [], s => (s, .ok)
  | (cid, c) :: cs, s =>
    match drawContainer i cid c with
    | .error e => (s, .raised e)
    | .ok fig =>
      match exportOneDisk io ex cid fig s.disk with
      | (k, some e) => ({ s with disk := k }, .raised e)
      | (k, none) =>
        if show_ then
          if io.shows cid then drawAllDisk io i ex show_ cs ⟨k, s.shown ++ [fig]⟩
          else (⟨k, s.shown⟩, .showFailed)
        else drawAllDisk io i ex show_ cs ⟨k, s.shown⟩

/-- `create_figure(show)` with its effects on the outside world, mixins.py 821-963 -/
def Inst.runFigure (io : FigIO) (show_ : Bool) (i : Inst) (s : FigWorld) : FigWorld × FigEnd :=
  if i.solution.isEmpty then (s, .ok)
  else if !i.plotlyInstalled then (s, .raised (.settingsError "PLOTLY_NOT_INSTALLED"))
  else if !i.plotlyOk then (s, .raised (.settingsError "PLOTLY_VERSION"))
  else
    match i.settings.asDict? with
    | none => (s, .raised .attributeError)
    | some st =>
      match (PyVal.get? st "figure").getD (.dict []) with
      | .dict fig =>
        let ex := PyVal.getD fig "export"
        let shown := (PyVal.getD fig "show").truthy || show_
        if !shown && ex.isNone then (s, .ok)
        else drawAllDisk io i ex shown i.containers s
      | _ => (s, .raised .attributeError)

end HP
