import Verif.Model.Structures
/-
Model of the validation of settings: heuristics.py 214-285 (PointGenerationSolver),
370-422 (HyperPack), mixins.py 674-805 (SolutionFigureMixin).
-/
namespace HP

/-- What the validation of figure settings reads from its surroundings: the dot separated parts
of the versions of plotly and kaleido (`none`: not installed), and the file system. -/
structure Env where
  plotly : Option (List String)
  kaleido : Option (List String)
  pathExists : String → Bool
  pathIsDir : String → Bool

/-- `a < b` for lists of code points (language semantics of comparing strings) -/
def ltNats : List Nat → List Nat → Bool
  | [], [] => false
  | [], _ :: _ => true
  | _ :: _, [] => false
  | a :: as, b :: bs => if a < b then true else if b < a then false else ltNats as bs

/-- `a < b` for strings: by code points -/
def strLt (a b : String) : Bool := ltNats (a.toList.map Char.toNat) (b.toList.map Char.toNat)

/-- `a < b` for tuples of strings (language semantics) -/
def tupleLt : List String → List String → Bool
  | [], [] => false
  | [], _ :: _ => true
  | _ :: _, [] => false
  | a :: as, b :: bs => if a = b then tupleLt as bs else strLt a b

/-- the version tests of `_check_plotly_kaleido_versions`, mixins.py 706-708, 716-718: tuples of
(at most three) strings are compared -/
def versionOk (v lo hi : List String) : Bool :=
  !tupleLt (v.take 3) lo && tupleLt (v.take 3) hi

/-- PLOTLY_MIN_VER, PLOTLY_MAX_VER, KALEIDO_MIN_VER, KALEIDO_MAX_VER, mixins.py 689-692 -/
def plotlyMin : List String := ["5", "14", "0"]
def plotlyMax : List String := ["6", "0", "0"]
def kaleidoMin : List String := ["0", "2", "1"]
def kaleidoMax : List String := ["0", "3", "0"]

/-- `_check_plotly_kaleido_versions`, mixins.py 694-718 -/
def Inst.checkVersions (E : Env) (i : Inst) : Inst :=
  { i with
    plotlyInstalled := E.plotly.isSome
    plotlyOk := match E.plotly with
      | some v => versionOk v plotlyMin plotlyMax
      | none => false
    kaleidoInstalled := E.kaleido.isSome
    kaleidoOk := match E.kaleido with
      | some v => versionOk v kaleidoMin kaleidoMax
      | none => false }

/-- `[a-zA-Z0-9_-]`, mixins.py 685 -/
def fileNameChar (c : Char) : Bool :=
  ('a' ≤ c && c ≤ 'z') || ('A' ≤ c && c ≤ 'Z') || ('0' ≤ c && c ≤ '9') || c == '_' || c == '-'

/-- `re.compile(r"[a-zA-Z0-9_-]{1,45}$").match(name)`, mixins.py 685, 784: in Python `$` matches
at the end and before a newline at the end -/
def fileNameOk (name : String) : Bool :=
  let cs := name.toList
  let cs := if cs.getLast? = some '\n' then cs.dropLast else cs
  decide (1 ≤ cs.length) && decide (cs.length ≤ 45) && cs.all fileNameChar

/-- `d[key] = v` on the entries of a dict, for a string key -/
def setEntry : List (PyVal × PyVal) → String → PyVal → List (PyVal × PyVal)
  | [], key, v => [(.str key, v)]
  | (k, v') :: rest, key, v =>
    if k.eqStr key then (k, v) :: rest else (k, v') :: setEntry rest key v

/-- `self._settings["figure"]["export"]["file_name"] = name`, mixins.py 777-779 -/
def setFileName (settings : List (PyVal × PyVal)) (fig export_ : List (PyVal × PyVal))
    (name : String) : List (PyVal × PyVal) :=
  setEntry settings "figure" (.dict (setEntry fig "export" (.dict (setEntry export_ "file_name" (.str name)))))

/-- FIGURE_DEFAULT_FILE_NAME, mixins.py 686 -/
def defaultFileName : String := "PlotlyGraph"

/-- ACCEPTED_IMAGE_EXPORT_FORMATS, mixins.py 687 -/
def imageFormats : List String := ["pdf", "png", "jpeg", "webp", "svg"]

/-- raise SettingsError(msg) -/
def settingsErr {α : Type} (msg : String) : Except PyErr α := .error (.settingsError msg)

/-- `not isinstance(v, int) or v <= 0` for a value that is not None, mixins.py 796, 800 -/
def badSide (v : PyVal) : Bool := !v.isNone && v.posInt?.isNone

/-- validation of `export` up to the file name, mixins.py 740-773; returns the export type -/
def checkExport1 (E : Env) (ex : List (PyVal × PyVal)) : Except PyErr Bool :=
  let ty := PyVal.getD ex "type"
  if ty.isNone then settingsErr "FIGURE_EXPORT_TYPE_MISSING"                          -- 743-745
  else if !(ty.eqStr "html" || ty.eqStr "image") then settingsErr "FIGURE_EXPORT_TYPE_VALUE"
  else
    let html := ty.eqStr "html"
    let path := PyVal.getD ex "path"
    if path.isNone then settingsErr "FIGURE_EXPORT_PATH_MISSING"                      -- 750-752
    else
      match path.asStr? with
      | none => settingsErr "FIGURE_EXPORT_PATH_VALUE"                                -- 754-755
      | some p =>
        if !E.pathExists p then settingsErr "FIGURE_EXPORT_PATH_NOT_EXISTS"           -- 758-759
        else if !E.pathIsDir p then settingsErr "FIGURE_EXPORT_PATH_NOT_DIRECTORY"    -- 761-762
        else
          let fmt := PyVal.getD ex "format"
          if fmt.isNone && !html then settingsErr "FIGURE_EXPORT_FORMAT_MISSING"      -- 764-766
          else if !html && fmt.asStr?.isNone then settingsErr "FIGURE_EXPORT_FORMAT_TYPE"
          else if !html && !(imageFormats.any (fun f => fmt.eqStr f)) then
            settingsErr "FIGURE_EXPORT_FORMAT_VALUE"                                  -- 771-773
          else .ok html

/-- checks that only concern image export, mixins.py 787-801 -/
def checkExport2 (i : Inst) (ex : List (PyVal × PyVal)) (html : Bool) : Except PyErr Unit :=
  if html then .ok ()
  else if !i.kaleidoInstalled then settingsErr "FIGURE_EXPORT_KALEIDO_MISSING"
  else if !i.kaleidoOk then settingsErr "FIGURE_EXPORT_KALEIDO_VERSION"
  else if badSide (PyVal.getD ex "width") then settingsErr "FIGURE_EXPORT_WIDTH_VALUE"
  else if badSide (PyVal.getD ex "height") then settingsErr "FIGURE_EXPORT_HEIGHT_VALUE"
  else .ok ()

/-- `show` setting, mixins.py 803-805 -/
def checkShow (fig : List (PyVal × PyVal)) : Except PyErr Unit :=
  match PyVal.get? fig "show" with
  | none => .ok ()
  | some v => if v.asBool?.isNone then settingsErr "FIGURE_SHOW_VALUE" else .ok ()

/-- the `export` part of `_validate_figure_settings`, mixins.py 737-801; `settings` are the
entries of `_settings`, `fig` of its figure settings -/
def Inst.checkExport (E : Env) (settings fig : List (PyVal × PyVal)) (i : Inst) :
    Inst × Except PyErr Unit :=
  match PyVal.get? fig "export" with
  | none => (i, .ok ())                                                               -- 737
  | some v =>
    match v.asDict? with
    | none => (i, settingsErr "FIGURE_EXPORT_VALUE_TYPE")                             -- 740-741
    | some ex =>
      match checkExport1 E ex with
      | .error e => (i, .error e)
      | .ok html =>
        let name := PyVal.getD ex "file_name"
        if name.isNone then                                                           -- 775-779
          let i := { i with settings := .dict (setFileName settings fig ex defaultFileName) }
          (i, checkExport2 i ex html)
        else
          match name.asStr? with
          | none => (i, settingsErr "FIGURE_EXPORT_FILE_NAME_TYPE")                   -- 781-782
          | some n =>
            if !fileNameOk n then (i, settingsErr "FIGURE_EXPORT_FILE_NAME_VALUE")    -- 784-785
            else (i, checkExport2 i ex html)

/-- `_validate_figure_settings`, mixins.py 720-805 (`_settings` is a dict here) -/
def Inst.validateFigure (E : Env) (i : Inst) : Inst × Except PyErr Unit :=
  let i := i.checkVersions E
  match i.settings.asDict? with
  | none => (i, .error .attributeError)
  | some st =>
    match (PyVal.get? st "figure").getD (.dict []) with
    | .dict fig =>
      if fig.isEmpty then (i, .ok ())
      else if !i.plotlyInstalled then (i, settingsErr "PLOTLY_NOT_INSTALLED")
      else if !i.plotlyOk then (i, settingsErr "PLOTLY_VERSION")
      else
        match i.checkExport E st fig with
        | (j, .error e) => (j, .error e)
        | (j, .ok ()) => (j, checkShow fig)
    | _ => (i, settingsErr "FIGURE_KEY_TYPE")

/-- ROTATION_DEFAULT_VALUE, MAX_TIME_IN_SECONDS_DEFAULT_VALUE, WORKERS_NUM_DEFAULT_VALUE,
heuristics.py 192, 346-347 -/
def rotationDefault : Bool := true
def maxTimeDefault : Int := 60
def workersDefault : PyVal := .int 1

/-- `PointGenerationSolver._validate_settings`, heuristics.py 214-256 -/
def Inst.validateBase (i : Inst) : Inst × Except PyErr Unit :=
  match i.settings.asDict? with
  | none => (i, settingsErr "TYPE")
  | some st =>
    if st.isEmpty then ({ i with rotation := rotationDefault }, .ok ())
    else
      let r := PyVal.getD st "rotation"
      if r.isNone then ({ i with rotation := rotationDefault }, .ok ())
      else
        match r.asBool? with
        | some b => ({ i with rotation := b }, .ok ())
        | none => (i, settingsErr "ROTATION_TYPE")

/-- `workers_num` part of `HyperPack._validate_settings`, heuristics.py 398-408 (the warnings of
409-422 have no effect; `cpu_count()` is a number and `workers_num` is one here) -/
def Inst.validateWorkers (st : List (PyVal × PyVal)) (i : Inst) : Inst × Except PyErr Unit :=
  let w := PyVal.getD st "workers_num"
  if w.isNone then ({ i with workers := workersDefault }, .ok ())
  else
    match w.gtZero? with
    | some true => ({ i with workers := w }, .ok ())
    | _ => (i, settingsErr "WORKERS_NUM_VALUE")

/-- `HyperPack._validate_settings`, heuristics.py 370-422 -/
def Inst.validateHyper (i : Inst) : Inst × Except PyErr Unit :=
  match i.validateBase with
  | (j, .error e) => (j, .error e)
  | (j, .ok ()) =>
    match j.settings.asDict? with
    | none => (j, settingsErr "TYPE")
    | some st =>
      if st.isEmpty then ({ j with maxTime := maxTimeDefault, workers := workersDefault }, .ok ())
      else
        match ((PyVal.get? st "max_time_in_seconds").getD (.int maxTimeDefault)).asInt? with
        | none => (j, settingsErr "MAX_TIME_IN_SECONDS_TYPE")
        | some t =>
          if t < 1 then (j, settingsErr "MAX_TIME_IN_SECONDS_VALUE")
          else Inst.validateWorkers st { j with maxTime := t }

/-- `validate_settings()`, mixins.py 965-967 -/
def Inst.validateSettings (E : Env) (i : Inst) : Inst × Except PyErr Unit :=
  match i.validateHyper with
  | (j, .error e) => (j, .error e)
  | (j, .ok ()) => j.validateFigure E

/-- `problem.settings = value`, heuristics.py 278-281 -/
def Inst.assignSettings (E : Env) (v : PyVal) (i : Inst) : Inst × Except PyErr Unit :=
  Inst.validateSettings E { i with settings := v }

end HP
