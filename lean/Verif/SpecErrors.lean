import Verif.SpecSettings
import Verif.Model.Py
/-
Specification of the exceptions of rejected edits: which class, and which of its messages
(by the name of the constant in exceptions.py).
-/
namespace HP.Spec

/-- the value is not a positive integer -/
def NotPosInt (v : PyVal) : Prop := ∀ n, ¬ IsPosInt v n

/-- `v` is a dict with exactly the two keys, and the values `a` (width) and `b` (length) -/
def TwoKeys (wk lk : String) (v a b : PyVal) : Prop :=
  v = .dict [(.str wk, a), (.str lk, b)] ∨ v = .dict [(.str lk, b), (.str wk, a)]

/-- what is wrong with a size `v` with the keys `wk`, `lk`: `m` is the message of the DimensionsError -/
def SizeFault (wk lk : String) (v : PyVal) (m : String) : Prop :=
  ((∀ d, v ≠ .dict d) ∧ m = "DIMENSIONS_TYPE") ∨
  (v = .dict [] ∧ m = "DIMENSIONS_MISSING") ∨
  ((∃ d, v = .dict d ∧ d ≠ []) ∧ (∀ a b, ¬ TwoKeys wk lk v a b) ∧ m = "DIMENSIONS_KEYS") ∨
  ((∃ a b, TwoKeys wk lk v a b ∧ (NotPosInt a ∨ NotPosInt b)) ∧ m = "DIMENSION_VALUE")

/-- what is wrong with an entry `id : v`; `err` is the exception class of the structure -/
def EntryFault (wk lk : String) (err : String → PyErr) (id v : PyVal) (e : PyErr) : Prop :=
  ((∀ s, id ≠ .str s) ∧ e = err "ID_TYPE") ∨
  (∃ s m, id = .str s ∧ SizeFault wk lk v m ∧ e = .dimensionsError m)

/-- what is wrong with the entries of a dict: the first wrong entry decides -/
def EntriesFault (wk lk : String) (err : String → PyErr) (es : List (PyVal × PyVal)) (e : PyErr) : Prop :=
  ∃ pre id v post, es = pre ++ (id, v) :: post ∧
    (∀ x ∈ pre, ∃ s d, x.1 = .str s ∧ IsSize wk lk x.2 d) ∧ EntryFault wk lk err id v e

/-- what is wrong with items or containers as a whole -/
def StructFault (wk lk : String) (err : String → PyErr) (v : PyVal) (e : PyErr) : Prop :=
  ((∀ d, v ≠ .dict d) ∧ e = err "TYPE") ∨
  (v = .dict [] ∧ e = err "MISSING") ∨
  (∃ es, v = .dict es ∧ EntriesFault wk lk err es e)

/-- values that cannot be keys of a dict: lists, dicts, and tuples that contain such a value -/
inductive Unhashable : PyVal → Prop where
  | list (l : List PyVal) : Unhashable (.list l)
  | dict (l : List (PyVal × PyVal)) : Unhashable (.dict l)
  | tuple (l : List PyVal) (v : PyVal) : v ∈ l → Unhashable v → Unhashable (.tuple l)

/-- `key` is not among the ids: KeyError, or TypeError for a value that cannot be a key -/
def KeyFault (ids : List String) (key : PyVal) (e : PyErr) : Prop :=
  (∀ s ∈ ids, key ≠ .str s) ∧ ((Unhashable key ∧ e = .typeError) ∨ (¬ Unhashable key ∧ e = .keyError))

/-- what is wrong with an assignment `size[key] = v` -/
def SideFault (wk lk : String) (key v : PyVal) (e : PyErr) : Prop :=
  (Unhashable key ∧ e = .typeError) ∨
  (¬ Unhashable key ∧ key ≠ .str wk ∧ key ≠ .str lk ∧ e = .dimensionsError "DIMENSIONS_KEYS") ∨
  ((key = .str wk ∨ key = .str lk) ∧ NotPosInt v ∧ e = .dimensionsError "DIMENSION_VALUE")

/-- what is wrong with a strategy: the first element that is no string, no name of a point class, or a
repetition decides -/
def StrategyFault (v : PyVal) (m : String) : Prop :=
  ((∀ l, v ≠ .tuple l) ∧ m = "TYPE") ∨
  ∃ (pre : List String) (x : PyVal) (post : List PyVal), v = .tuple (pre.map .str ++ x :: post) ∧
    pre.Nodup ∧ (∀ n ∈ pre, n ∈ pointNames) ∧
    (((∀ s, x ≠ .str s) ∧ m = "ELEMENT_TYPE") ∨
     (∃ s, x = .str s ∧ s ∉ pointNames ∧ m = "ELEMENT_NOT_POINT") ∨
     (∃ s, x = .str s ∧ s ∈ pre ∧ m = "DUPLICATE_POINTS"))

/-! ### settings -/

/-- `m` belongs to the first condition of the list that holds -/
def FirstOf (l : List (Prop × String)) (m : String) : Prop :=
  ∃ pre c post, l = pre ++ (c, m) :: post ∧ c ∧ ∀ x ∈ pre, ¬ x.1

/-- what the tests of the settings need to know about their surroundings -/
structure Surroundings where
  pathExists : String → Prop
  pathIsDir : String → Prop
  plotlyInstalled : Prop
  plotlyOk : Prop
  kaleidoInstalled : Prop
  kaleidoOk : Prop
  /-- the condition on file names -/
  nameOk : String → Prop

/-- the value of the key, if it is not missing or None, satisfies `P` -/
def Given (st : List (PyVal × PyVal)) (key : String) (P : PyVal → Prop) : Prop :=
  ∃ v, PyVal.get? st key = some v ∧ v ≠ .none ∧ P v

def IsStr (v : PyVal) : Prop := ∃ s, v = .str s
def IsBool (v : PyVal) : Prop := ∃ b, v = .bool b
/-- an int (a bool is one) -/
def IsInt (v : PyVal) : Prop := (∃ n, v = .int n) ∨ IsBool v

/-- what can be wrong with the export settings, in the order of the tests -/
def exportFaults (S : Surroundings) (ex : List (PyVal × PyVal)) : List (Prop × String) :=
  let image := PyVal.get? ex "type" = some (.str "image")
  [ (Absent ex "type", "FIGURE_EXPORT_TYPE_MISSING"),
    (PyVal.get? ex "type" ≠ some (.str "html") ∧ ¬ image, "FIGURE_EXPORT_TYPE_VALUE"),
    (Absent ex "path", "FIGURE_EXPORT_PATH_MISSING"),
    (Given ex "path" (¬ IsStr ·), "FIGURE_EXPORT_PATH_VALUE"),
    (∃ p, PyVal.get? ex "path" = some (.str p) ∧ ¬ S.pathExists p, "FIGURE_EXPORT_PATH_NOT_EXISTS"),
    (∃ p, PyVal.get? ex "path" = some (.str p) ∧ ¬ S.pathIsDir p, "FIGURE_EXPORT_PATH_NOT_DIRECTORY"),
    (image ∧ Absent ex "format", "FIGURE_EXPORT_FORMAT_MISSING"),
    (image ∧ Given ex "format" (¬ IsStr ·), "FIGURE_EXPORT_FORMAT_TYPE"),
    (image ∧ ∀ f ∈ ["pdf", "png", "jpeg", "webp", "svg"], PyVal.get? ex "format" ≠ some (.str f),
      "FIGURE_EXPORT_FORMAT_VALUE"),
    (Given ex "file_name" (¬ IsStr ·), "FIGURE_EXPORT_FILE_NAME_TYPE"),
    (∃ n, PyVal.get? ex "file_name" = some (.str n) ∧ ¬ S.nameOk n, "FIGURE_EXPORT_FILE_NAME_VALUE"),
    (image ∧ ¬ S.kaleidoInstalled, "FIGURE_EXPORT_KALEIDO_MISSING"),
    (image ∧ ¬ S.kaleidoOk, "FIGURE_EXPORT_KALEIDO_VERSION"),
    (image ∧ Given ex "width" NotPosInt, "FIGURE_EXPORT_WIDTH_VALUE"),
    (image ∧ Given ex "height" NotPosInt, "FIGURE_EXPORT_HEIGHT_VALUE") ]

/-- what can be wrong with the figure settings, in the order of the tests -/
def figureFaults (S : Surroundings) (fig : List (PyVal × PyVal)) : List (Prop × String) :=
  [ (¬ S.plotlyInstalled, "PLOTLY_NOT_INSTALLED"), (¬ S.plotlyOk, "PLOTLY_VERSION") ] ++
  (match PyVal.get? fig "export" with
   | none => []
   | some (.dict ex) => exportFaults S ex
   | some _ => [(True, "FIGURE_EXPORT_VALUE_TYPE")]) ++
  [ (∃ v, PyVal.get? fig "show" = some v ∧ ¬ IsBool v, "FIGURE_SHOW_VALUE") ]

/-- what can be wrong with settings, in the order of the tests -/
def settingsFaults (S : Surroundings) (v : PyVal) : List (Prop × String) :=
  match v with
  | .dict st =>
    [ (Given st "rotation" (¬ IsBool ·), "ROTATION_TYPE"),
      (∃ t, PyVal.get? st "max_time_in_seconds" = some t ∧ ¬ IsInt t, "MAX_TIME_IN_SECONDS_TYPE"),
      ((∃ n : Int, PyVal.get? st "max_time_in_seconds" = some (.int n) ∧ n < 1) ∨
        PyVal.get? st "max_time_in_seconds" = some (.bool false), "MAX_TIME_IN_SECONDS_VALUE"),
      (Given st "workers_num" (¬ IsPositive ·), "WORKERS_NUM_VALUE") ] ++
    (match PyVal.get? st "figure" with
     | none => []
     | some (.dict []) => []
     | some (.dict fig) => figureFaults S fig
     | some _ => [(True, "FIGURE_KEY_TYPE")])
  | _ => [(True, "TYPE")]

/-- what is wrong with the arguments `containers` and `strip_pack_width` of the constructor -/
def ContainersFault (containers stripWidth : PyVal) (e : PyErr) : Prop :=
  (stripWidth = .none ∧ StructFault "W" "L" .containersError containers e) ∨
  (stripWidth ≠ .none ∧ NotPosInt stripWidth ∧ e = .dimensionsError "DIMENSION_VALUE") ∨
  ((∃ n, IsPosInt stripWidth n) ∧ containers ≠ .none ∧ e = .containersError "STRIP_PACK_ONLY")

end HP.Spec
