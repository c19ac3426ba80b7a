import Verif.SpecStructures
/-
Specifications used by the properties of the settings.  `PyVal.get? st key` is `st.get(key)`
on the entries of a dict (`none`: the key is missing).
-/
namespace HP.Spec

/-- Python's truth value testing: None, False, zero and whatever is empty count as false, every
other value as true -/
def CountsFalse (v : PyVal) : Prop :=
  v = .none ∨ v = .bool false ∨ v = .int 0 ∨ v = .float 0 ∨ v = .str "" ∨ v = .list [] ∨
  v = .tuple [] ∨ v = .dict []

/-- the key is missing, or its value is None -/
def Absent (st : List (PyVal × PyVal)) (key : String) : Prop :=
  PyVal.get? st key = none ∨ PyVal.get? st key = some .none

/-- `rotation`: a bool, by default True -/
def RotationSetting (st : List (PyVal × PyVal)) (b : Bool) : Prop :=
  (Absent st "rotation" ∧ b = true) ∨ PyVal.get? st "rotation" = some (.bool b)

/-- `max_time_in_seconds`: an integer (a bool is one) of at least 1, by default 60 -/
def TimeSetting (st : List (PyVal × PyVal)) (t : Int) : Prop :=
  (PyVal.get? st "max_time_in_seconds" = none ∧ t = 60) ∨
  (PyVal.get? st "max_time_in_seconds" = some (.int t) ∧ 1 ≤ t) ∨
  (PyVal.get? st "max_time_in_seconds" = some (.bool true) ∧ t = 1)

/-- a positive number of any type -/
def IsPositive (v : PyVal) : Prop :=
  (∃ n : Int, v = .int n ∧ 0 < n) ∨ v = .bool true ∨ (∃ q : Rat, v = .float q ∧ 0 < q) ∨ v = .inf

/-- `workers_num`: a positive number, by default 1 -/
def WorkersSetting (st : List (PyVal × PyVal)) (w : PyVal) : Prop :=
  (Absent st "workers_num" ∧ w = .int 1) ∨
  (PyVal.get? st "workers_num" = some w ∧ IsPositive w)

/-- a file name of 1 to 45 characters out of a-z, A-Z, 0-9, `_`, `-` -/
def ProperName (n : String) : Prop :=
  1 ≤ n.toList.length ∧ n.toList.length ≤ 45 ∧
  ∀ c ∈ n.toList, ('a' ≤ c ∧ c ≤ 'z') ∨ ('A' ≤ c ∧ c ≤ 'Z') ∨ ('0' ≤ c ∧ c ≤ '9') ∨ c = '_' ∨ c = '-'

/-- missing, None or a positive integer -/
def SideSetting (ex : List (PyVal × PyVal)) (key : String) : Prop :=
  Absent ex key ∨ ∃ v n, PyVal.get? ex key = some v ∧ IsPosInt v n

/-- the settings of an export, for an environment in which `isDir p` says that the path exists
and is a directory, and `kaleido` that a suitable kaleido is installed; `nameOk` is the condition
on file names -/
def ExportSetting (isDir : String → Prop) (kaleido : Prop) (nameOk : String → Prop)
    (ex : List (PyVal × PyVal)) : Prop :=
  (∃ p, PyVal.get? ex "path" = some (.str p) ∧ isDir p) ∧
  (Absent ex "file_name" ∨ ∃ n, PyVal.get? ex "file_name" = some (.str n) ∧ nameOk n) ∧
  (PyVal.get? ex "type" = some (.str "html") ∨
   (PyVal.get? ex "type" = some (.str "image") ∧
    (∃ f, PyVal.get? ex "format" = some (.str f) ∧ f ∈ ["pdf", "png", "jpeg", "webp", "svg"]) ∧
    kaleido ∧ SideSetting ex "width" ∧ SideSetting ex "height"))

/-- the figure settings -/
def FigureSetting (isDir : String → Prop) (plotly kaleido : Prop) (nameOk : String → Prop)
    (st : List (PyVal × PyVal)) : Prop :=
  PyVal.get? st "figure" = none ∨
  ∃ fig, PyVal.get? st "figure" = some (.dict fig) ∧
    (fig = [] ∨
     (plotly ∧
      (PyVal.get? fig "export" = none ∨
        ∃ ex, PyVal.get? fig "export" = some (.dict ex) ∧ ExportSetting isDir kaleido nameOk ex) ∧
      (PyVal.get? fig "show" = none ∨ ∃ b, PyVal.get? fig "show" = some (.bool b))))

/-- `a < b` for versions, compared number by number -/
def VersionLt : List Nat → List Nat → Prop
  | [], [] => False
  | [], _ :: _ => True
  | _ :: _, [] => False
  | a :: as, b :: bs => a < b ∨ (a = b ∧ VersionLt as bs)

instance : ∀ a b, Decidable (VersionLt a b)
  | [], [] => .isFalse id
  | [], _ :: _ => .isTrue trivial
  | _ :: _, [] => .isFalse id
  | a :: as, b :: bs =>
    have := instDecidableVersionLt as bs
    inferInstanceAs (Decidable (a < b ∨ (a = b ∧ VersionLt as bs)))

/-- the string consists of the decimal digits `ds` -/
def Digits (s : String) (ds : List Nat) : Prop :=
  (∀ d ∈ ds, d < 10) ∧ s.toList.map Char.toNat = ds.map (· + 48)

/-- the number with the decimal digits `ds` -/
def valueOf (ds : List Nat) : Nat := ds.foldl (fun a d => 10 * a + d) 0

/-- settings that are accepted apart from the figure settings, and what they stand for -/
def PlainSettings (st : List (PyVal × PyVal)) (rotation : Bool) (maxTime : Int) (workers : PyVal) : Prop :=
  RotationSetting st rotation ∧ TimeSetting st maxTime ∧ WorkersSetting st workers

end HP.Spec
