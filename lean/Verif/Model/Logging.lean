import Verif.Model.Machine
/-
Model of what the library writes to its logger "hyperpack" (loggers.py 4) at the levels INFO and
above, in the process of the caller: exceptions.py 4-17, heuristics.py 398-422, 530-535,
mixins.py 639-641, 670, 840-842, 859-861, 997-1007.

Creating an exception of the library logs its message (exceptions.py 11-17).  There are three
handlers in the library: around the comparison of `workers_num` (heuristics.py 400-404, modelled
here), around the export of a figure (mixins.py 937-961; no exception of the library is created in
it) and around `run` of a worker process (processes.py 64, 126-131; another process).  Everywhere
else an exception that is created leaves the call, so the call has logged it once.
Not modelled: DEBUG records, records of the worker processes, the text of the messages (a record
of an exception carries the exception).
-/
namespace HP

/-- levels of the standard library that are used -/
inductive Level where
  | info
  | warning
  | error
  deriving DecidableEq, Repr

/-- what a record says -/
inductive LogMsg where
  /-- the message of an exception, exceptions.py 11-17 -/
  | exception (e : PyErr)
  /-- WORKERS_NUM_CPU_COUNT_WARNING, heuristics.py 409-410 -/
  | moreWorkersThanCpus
  /-- "In Windows OS multiprocessing needs 'Entry point protection' ...", heuristics.py 412-422 -/
  | entryPoint
  /-- "No solving operation has been concluded.", mixins.py 640 -/
  | nothingSolved
  /-- NO_SOLUTION_WARNING, mixins.py 841 -/
  | noFigureWithoutSolution
  /-- NO_FIGURE_OPERATION, mixins.py 860 -/
  | noFigureOperation
  /-- "can't rotate items. Rotation is disabled", mixins.py 998 -/
  | rotationDisabled
  /-- "orientation parameter '...' not valid. Orientation skipped.", mixins.py 1004-1006 -/
  | orientationInvalid (v : PyVal)
  /-- "Some of the processes raised an exception. Please check logs.", heuristics.py 533-535 -/
  | someProcessesFailed
  /-- the report of `log_solution`, mixins.py 670 -/
  | report (l : SolutionLog)

/-- a record -/
structure LogRec where
  level : Level
  msg : LogMsg

/-- what the warnings depend on: `cpu_count()`, `platform.system() == "Windows"`,
`current_process().name == "MainProcess"` -/
structure Machine where
  cpus : Nat
  windows : Bool
  mainProcess : Bool

/-- is it an exception of the library (a subclass of ErrorLoggingException)? exceptions.py 20-140 -/
def PyErr.ofLibrary : PyErr → Bool
  | .containersError _ => true
  | .itemsError _ => true
  | .dimensionsError _ => true
  | .settingsError _ => true
  | .potentialPointsError _ => true
  | .multiProcessError _ => true
  | .figureExportError _ => true
  | _ => false

/-- creating an exception, exceptions.py 11-17; other exceptions are not logged -/
def logCreated (e : PyErr) : List LogRec := if e.ofLibrary then [⟨.error, .exception e⟩] else []

/-- a part of the code without handler -/
def logResult {α : Type} : Except PyErr α → List LogRec
  | .error e => logCreated e
  | .ok _ => []

/-- `v > n` for a number `n` and a value that compares with numbers -/
def PyVal.gtNat (v : PyVal) (n : Nat) : Bool :=
  match v with
  | .int i => decide (i > n)
  | .float q => decide (q > n)
  | .bool b => b && decide (n < 1)
  | .inf => true
  | _ => false

/-- the warnings about the number of workers, heuristics.py 409-422 -/
def workersWarnings (m : Machine) (w : PyVal) : List LogRec :=
  (if w.gtNat m.cpus then [⟨.warning, .moreWorkersThanCpus⟩] else []) ++
  (if w.gtNat 1 && m.windows && m.mainProcess then [⟨.warning, .entryPoint⟩] else [])

/-- the exception for an improper `workers_num` -/
def workersError : PyErr := .settingsError "WORKERS_NUM_VALUE"

/-- the part about `workers_num` of `HyperPack._validate_settings`, heuristics.py 398-422.  A value
that compares as not positive raises inside the try block (402), and again in its handler (404). -/
def workersLog (m : Machine) (st : List (PyVal × PyVal)) : List LogRec :=
  let w := PyVal.getD st "workers_num"
  if w.isNone then workersWarnings m workersDefault                                -- 406-408
  else
    match w.gtZero? with
    | some true => workersWarnings m w
    | some false => logCreated workersError ++ logCreated workersError             -- 401-404
    | none => logCreated workersError                                              -- 403-404

/-- `HyperPack._validate_settings`, heuristics.py 370-422 -/
def Inst.hyperLog (m : Machine) (i : Inst) : List LogRec :=
  match i.validateBase with
  | (_, .error e) => logCreated e
  | (j, .ok ()) =>
    match j.settings.asDict? with
    | none => logResult (settingsErr (α := Unit) "TYPE")
    | some st =>
      if st.isEmpty then []                                                        -- 376-380
      else
        match ((PyVal.get? st "max_time_in_seconds").getD (.int maxTimeDefault)).asInt? with
        | none => logResult (settingsErr (α := Unit) "MAX_TIME_IN_SECONDS_TYPE")
        | some t =>
          if t < 1 then logResult (settingsErr (α := Unit) "MAX_TIME_IN_SECONDS_VALUE")
          else workersLog m st

/-- `validate_settings()`, mixins.py 965-967 -/
def Inst.validateLog (m : Machine) (E : Env) (i : Inst) : List LogRec :=
  i.hyperLog m ++
  match i.validateHyper with
  | (_, .error _) => []
  | (j, .ok ()) => logResult (j.validateFigure E).2

/-- the constructor, heuristics.py 36-44, 194-210, 357-368 -/
def mkLog (m : Machine) (E : Env) (containers items settings stripWidth : PyVal) : List LogRec :=
  match initContainers containers stripWidth with
  | .error e => logCreated e
  | .ok (strip, cs, height) =>
    match (buildStructure .items items).2 with
    | .error e => logCreated e
    | .ok its => Inst.validateLog m E (rawInst strip cs its height settings)

/-- `orient_items(orientation)`, mixins.py 994-1019; the loops do not log on success -/
def Inst.orientLog (orientation : PyVal) (i : Inst) : List LogRec :=
  if orientation.isNone then []
  else if !i.rotation then [⟨.warning, .rotationDisabled⟩]                         -- 997-999
  else if !(orientation.eqStr "wide" || orientation.eqStr "long") then
    [⟨.warning, .orientationInvalid orientation⟩]                                  -- 1003-1007
  else logResult (i.orientItems orientation).2

/-- the parent process of the multi process search after the workers have ended, heuristics.py
524-535; `join` may wait forever -/
def finishLog (s : MPState) : List LogRec :=
  if !s.phases.all Phase.ended then []
  else
    match arrayMax s.arr with
    | none => []
    | some x =>
      if x = -1 then logCreated (.multiProcessError "ALL_PROCESSES_FAILED")
      else if s.arr.contains (-1) then [⟨.error, .someProcessesFailed⟩]
      else []

/-- creating the workers' objects (in the parent, processes.py 47-58, heuristics.py 505-521), then
waiting for them.  The workers' settings have no `workers_num` above 1, so creating an object does not
log unless it raises (then only the first one is created). -/
def Inst.multiLog (m : Machine) (E : Env) (M : MPParams) (strategies : List (List PClass))
    (schedule : List (Nat × MPEvent)) (i : Inst) : List LogRec :=
  match strategyChunks strategies i.workers with
  | .error e => logCreated e
  | .ok chunks =>
    match workerSettings i.settings, workerContainers i with
    | .ok st, .ok c =>
      match mkInst E c.1 (SKind.items.encodeAll i.items) st c.2 with
      | .error _ => mkLog m E c.1 (SKind.items.encodeAll i.items) st c.2
      | .ok w => chunks.flatMap (fun _ => mkLog m E c.1 (SKind.items.encodeAll i.items) st c.2) ++
          finishLog (mpRun M { w with minHeight := i.minHeight } chunks schedule)
    | .error e, _ => logCreated e
    | _, .error e => logCreated e

/-- `hypersearch(...)`, heuristics.py 608-634; the search in one process only logs at DEBUG level,
and raises no exception of the library (C27) -/
def Inst.hypersearchLog (m : Machine) (A : Arith) (h : HSArgs) (i : Inst) : List LogRec :=
  match i.sortItems A h.sortingBy with
  | (_, .error e) => logCreated e
  | (j, .ok ()) =>
    j.orientLog h.orientation ++
    match j.orientItems h.orientation with
    | (_, .error _) => []
    | (k, .ok ()) =>
      if k.workers.isOne then
        logResult (k.singleHS A (fun n => h.clock (n + 1)) (h.clock 0) h.throttle
          (getStrategies h.order k.strip h.exhaustive))
      else k.multiLog m h.env (h.mp A) (getStrategies h.order k.strip h.exhaustive) h.schedule

/-- `log_solution()`, mixins.py 639-671 -/
def Inst.solutionLog (i : Inst) : List LogRec :=
  match i.logSolution with
  | .error e => logCreated e
  | .ok none => [⟨.warning, .nothingSolved⟩]
  | .ok (some l) => [⟨.info, .report l⟩]

/-- `create_figure(show)`, mixins.py 840-963 -/
def Inst.figureLog (writes : String → String → Bool) (show_ : Bool) (i : Inst) : List LogRec :=
  if i.solution.isEmpty then [⟨.warning, .noFigureWithoutSolution⟩]                -- 840-842
  else if !i.plotlyInstalled then logCreated (.settingsError "PLOTLY_NOT_INSTALLED")
  else if !i.plotlyOk then logCreated (.settingsError "PLOTLY_VERSION")
  else
    match i.settings.asDict? with
    | none => logCreated .attributeError
    | some st =>
      match (PyVal.get? st "figure").getD (.dict []) with
      | .dict fig =>
        let ex := PyVal.getD fig "export"
        let shown := (PyVal.getD fig "show").truthy || show_
        if !shown && ex.isNone then [⟨.warning, .noFigureOperation⟩]               -- 859-861
        else logResult (drawAll writes i ex shown i.containers)
      | _ => logCreated .attributeError

/-- what a call logs -/
def callLog (m : Machine) (A : Arith) (i : Inst) (o : Op) : List LogRec :=
  match o with
  | .settings E v => Inst.validateLog m E { i with settings := v }
  | .validate E => i.validateLog m E
  | .orientItems v => i.orientLog v
  | .hypersearch h => i.hypersearchLog m A h
  | .log => i.solutionLog
  | .figure writes show_ => i.figureLog writes show_
  | o =>
    match (step A i o).2 with
    | .raised e => logCreated e
    | _ => []

end HP
