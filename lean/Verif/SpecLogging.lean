import Verif.Model.Logging
import Verif.SpecSettings
import Verif.SpecWorkers
/-
Vocabulary of C98: the messages of each level in a log.
-/
namespace HP.Spec

/-- the messages logged at a level, in order -/
def messages (level : Level) (l : List LogRec) : List LogMsg :=
  (l.filter (fun r => decide (r.level = level))).map (·.msg)

/-- the value is a number greater than `n`, as Python compares -/
def Exceeds (v : PyVal) (n : Nat) : Prop :=
  (∃ i : Int, v = .int i ∧ (n : Int) < i) ∨ (∃ q : Rat, v = .float q ∧ (n : Rat) < q) ∨
  (v = .bool true ∧ n < 1) ∨ v = .inf

/-- the value is a number that is not positive (NaN is not positive either) -/
def NumberNotPositive (v : PyVal) : Prop :=
  (∃ i : Int, v = .int i ∧ i ≤ 0) ∨ (∃ q : Rat, v = .float q ∧ q ≤ 0) ∨ v = .bool false ∨ v = .ninf ∨ v = .nan

/-- the warnings documented for an accepted number of workers -/
def WorkersWarned (m : Machine) (w : PyVal) (l : List LogMsg) : Prop :=
  (l = [] ∨ l = [.moreWorkersThanCpus] ∨ l = [.entryPoint] ∨ l = [.moreWorkersThanCpus, .entryPoint]) ∧
  (.moreWorkersThanCpus ∈ l ↔ Exceeds w m.cpus) ∧
  (.entryPoint ∈ l ↔ Exceeds w 1 ∧ m.windows = true ∧ m.mainProcess = true)

/-- the warnings of `orient_items(v)` with the given setting of rotation -/
def OrientWarned (rotation : Bool) (v : PyVal) (l : List LogMsg) : Prop :=
  (v = .none → l = []) ∧
  (v ≠ .none → rotation = false → l = [.rotationDisabled]) ∧
  (v ≠ .none → rotation = true → v ≠ .str "wide" → v ≠ .str "long" → l = [.orientationInvalid v]) ∧
  (rotation = true → v = .str "wide" ∨ v = .str "long" → l = [])

/-- the warnings of `create_figure(show)`: there is no solution; or neither the argument nor the
settings ask for showing or exporting -/
def FigureWarned (i : Inst) (show_ : Bool) (l : List LogMsg) : Prop :=
  (i.solution = [] → l = [.noFigureWithoutSolution]) ∧
  (i.solution ≠ [] → l = [] ∨ l = [.noFigureOperation]) ∧
  (i.solution ≠ [] → i.plotlyInstalled = true → i.plotlyOk = true → ∀ st fig, i.settings = .dict st →
    (PyVal.get? st "figure").getD (.dict []) = .dict fig →
    (l = [.noFigureOperation] ↔
      show_ = false ∧ CountsFalse (PyVal.getD fig "show") ∧ PyVal.getD fig "export" = .none))

/-- an exception class of the library -/
def LibraryException (e : PyErr) : Prop :=
  ∃ msg, e = .containersError msg ∨ e = .itemsError msg ∨ e = .dimensionsError msg ∨ e = .settingsError msg ∨
    e = .potentialPointsError msg ∨ e = .multiProcessError msg ∨ e = .figureExportError msg

/-- the errors of a log are those of one exception: it was logged once, or it is the one about
`workers_num` and was logged twice -/
def Reports (e : PyErr) (l : List LogRec) : Prop :=
  messages .error l = [.exception e] ∨
  (e = .settingsError "WORKERS_NUM_VALUE" ∧ messages .error l = [.exception e, .exception e])

end HP.Spec
