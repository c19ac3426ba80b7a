import Verif.Model.Machine
/-
Subclasses of `HyperPack` that override the class constants with the default settings
(docs/source/problem_params.rst, notes on workers_num, max_time_in_seconds and rotation):
ROTATION_DEFAULT_VALUE, MAX_TIME_IN_SECONDS_DEFAULT_VALUE, WORKERS_NUM_DEFAULT_VALUE,
heuristics.py 192, 346-347.  The constructor and every method are inherited; only the places that
read these constants differ: heuristics.py 245, 256, 378-379, 386, 407-408.
Worker processes do not create an object of the subclass, but of `HyperPack` (processes.py 38, 57),
so `workerInst` is used as it is.
Simplification: the rotation default is a bool, the time limit an int, the number of workers
compares with numbers.
-/
namespace HP

/-- the overridable constants -/
structure Defaults where
  rotation : Bool
  maxTime : Int
  workers : PyVal

/-- `PointGenerationSolver._validate_settings` in the subclass, heuristics.py 214-256 -/
def Inst.subBase (D : Defaults) (i : Inst) : Inst × Except PyErr Unit :=
  match i.settings.asDict? with
  | none => (i, settingsErr "TYPE")
  | some st =>
    if st.isEmpty then ({ i with rotation := D.rotation }, .ok ())                 -- 243-246
    else
      let r := PyVal.getD st "rotation"
      if r.isNone then ({ i with rotation := D.rotation }, .ok ())                 -- 255-256
      else
        match r.asBool? with
        | some b => ({ i with rotation := b }, .ok ())
        | none => (i, settingsErr "ROTATION_TYPE")

/-- `workers_num` in the subclass, heuristics.py 398-408 -/
def Inst.subWorkers (D : Defaults) (st : List (PyVal × PyVal)) (i : Inst) : Inst × Except PyErr Unit :=
  let w := PyVal.getD st "workers_num"
  if w.isNone then ({ i with workers := D.workers }, .ok ())
  else
    match w.gtZero? with
    | some true => ({ i with workers := w }, .ok ())
    | _ => (i, settingsErr "WORKERS_NUM_VALUE")

/-- `HyperPack._validate_settings` in the subclass, heuristics.py 370-422 -/
def Inst.subHyper (D : Defaults) (i : Inst) : Inst × Except PyErr Unit :=
  match i.subBase D with
  | (j, .error e) => (j, .error e)
  | (j, .ok ()) =>
    match j.settings.asDict? with
    | none => (j, settingsErr "TYPE")
    | some st =>
      if st.isEmpty then ({ j with maxTime := D.maxTime, workers := D.workers }, .ok ())  -- 376-380
      else
        match ((PyVal.get? st "max_time_in_seconds").getD (.int D.maxTime)).asInt? with   -- 385-390
        | none => (j, settingsErr "MAX_TIME_IN_SECONDS_TYPE")
        | some t =>
          if t < 1 then (j, settingsErr "MAX_TIME_IN_SECONDS_VALUE")
          else Inst.subWorkers D st { j with maxTime := t }

/-- `validate_settings()` in the subclass, mixins.py 965-967 -/
def Inst.subValidate (D : Defaults) (E : Env) (i : Inst) : Inst × Except PyErr Unit :=
  match i.subHyper D with
  | (j, .error e) => (j, .error e)
  | (j, .ok ()) => j.validateFigure E

/-- the constructor in the subclass, heuristics.py 36-44, 194-210, 357-368; an omitted argument is
None -/
def subMk (D : Defaults) (E : Env) (containers items settings stripWidth : PyVal) : Except PyErr Inst :=
  match initContainers containers stripWidth with
  | .error e => .error e
  | .ok (strip, cs, height) =>
    match (buildStructure .items items).2 with
    | .error e => .error e
    | .ok its =>
      match Inst.subValidate D E (rawInst strip cs its height settings) with
      | (_, .error e) => .error e
      | (i, .ok ()) => .ok i

/-- one call on an object of the subclass; everything except the validation of the settings
(heuristics.py 258-260, 278-281) is inherited -/
def subStep (A : Arith) (D : Defaults) (i : Inst) (o : Op) : Inst × Outcome :=
  match o with
  | .settings E v => outcomeOf (Inst.subValidate D E { i with settings := v })
  | .validate E => outcomeOf (i.subValidate D E)
  | o => step A i o

/-- the objects of the subclass that can be reached without worker processes -/
inductive SubReach (A : Arith) (D : Defaults) : Inst → Prop where
  | new {E : Env} {containers items settings stripWidth : PyVal} {i : Inst} :
      subMk D E containers items settings stripWidth = .ok i → SubReach A D i
  | step {i : Inst} (o : Op) : (∀ a, o = .hypersearch a → i.workers.isOne = true) → SubReach A D i →
      SubReach A D (subStep A D i o).1

end HP
