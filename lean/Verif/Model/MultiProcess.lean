import Verif.Model.Instance
import Mathlib.Data.Rat.Floor
/-
Model of the multi process hypersearch: heuristics.py 492-563, processes.py 9-131.

Each worker process is a small state machine; between any two steps of a worker the other
workers may run.  A schedule is a list of events, each for one worker: a step, an exception
raised inside `run` (in its `try` block), or the death of the process (killed by the
operating system).
-/
namespace HP

/-- `math.ceil(len(strategies) / workers_num)`, heuristics.py 495, in exact arithmetic (the
rounding of the float division is not modelled; `C31_rounded` shows that it does not matter).  Only called for a `workers_num` that
compares greater than 0. -/
def perProcess (n : Nat) (workers : PyVal) : Except PyErr Nat :=
  match workers with
  | .int i => .ok ⌈(n : Rat) / (i : Rat)⌉.toNat
  | .float q => .ok ⌈(n : Rat) / q⌉.toNat
  | .bool b => if b then .ok n else .error .zeroDivisionError
  | .inf => .ok 0
  | _ => .error .typeError

/-- `[xs[i : i + k] for i in range(0, len(xs), k)]` for `k > 0`, heuristics.py 496-499; the
first argument bounds the number of chunks -/
def chunksOf {α : Type} (k : Nat) : Nat → List α → List (List α)
  | 0, _ => []
  | n + 1, xs => if xs.isEmpty then [] else xs.take k :: chunksOf k n (xs.drop k)

/-- the chunks, heuristics.py 495-499; `range` with step 0 raises ValueError -/
def strategyChunks (strategies : List (List PClass)) (workers : PyVal) :
    Except PyErr (List (List (List PClass))) :=
  match perProcess strategies.length workers with
  | .error e => .error e
  | .ok k =>
    if k = 0 then .error .valueError else .ok (chunksOf k strategies.length strategies)

/-- the settings a worker gets, processes.py 47-50: a copy with `workers_num` set to 1 if it is
there.  Settings that are not a dict (left behind by a rejected assignment): `"workers_num" in
settings` looks for a part of a str, an element of a list or tuple, and raises TypeError for other
types, as does the assignment `settings["workers_num"] = 1`; a list or str without it goes to the
constructor.  Simplification: for `other` objects the test raises TypeError, too. -/
def workerSettings (settings : PyVal) : Except PyErr PyVal :=
  match settings with
  | .dict st =>
    if (PyVal.get? st "workers_num").isSome then .ok (.dict (setEntry st "workers_num" (.int 1)))
    else .ok (.dict st)
  | .str s => if "workers_num".toList <:+: s.toList then .error .typeError else .ok (.str s)
  | .list l => if l.any (·.eqStr "workers_num") then .error .typeError else .ok (.list l)
  | .tuple l => if l.any (·.eqStr "workers_num") then .error .typeError else .ok (.tuple l)
  | _ => .error .typeError

/-- the arguments `containers` and `strip_pack_width` for the worker's instance, processes.py
52-55 -/
def workerContainers (i : Inst) : Except PyErr (PyVal × PyVal) :=
  if i.strip then
    match PyDict.find? i.containers stripId with
    | some c => .ok (.none, .int c.w)
    | none => .error .keyError
  else .ok (SKind.containers.encodeAll i.containers, .none)

/-- the instance of a worker, processes.py 47-58 -/
def workerInst (E : Env) (i : Inst) : Except PyErr Inst := do
  let st ← workerSettings i.settings
  let c ← workerContainers i
  let w ← mkInst E c.1 (SKind.items.encodeAll i.items) st c.2
  return { w with minHeight := i.minHeight }

/-- what a worker puts into its queue: `(best_obj_value, solution, obj_val_per_container,
best_strategy)`, processes.py 122-123, 131 -/
structure Msg where
  value : Rat
  sol : Solution
  ov : ObjVals
  strategy : Option (List PClass)
  deriving DecidableEq

/-- the message of a worker that raised, processes.py 131 -/
def failMsg : Msg := ⟨-1, [], [], none⟩

/-- variables of `HyperSearchProcess.run`, processes.py 68-77 -/
structure WVars where
  inst : Inst
  best : Rat
  retained : Solution × ObjVals
  strategy : Option (List PClass)
  tick : Nat

/-- where a worker is -/
inductive Phase where
  /-- before `run`'s first statement -/
  | start
  /-- head of the loop with the strategies still to do, processes.py 79 -/
  | loop (v : WVars) (rest : List (List PClass))
  /-- after the local search, with the new value, processes.py 84; reads the array next -/
  | searched (v : WVars) (new : Rat) (st : List PClass) (rest : List (List PClass))
  /-- the array has been read, processes.py 85; the comparison and the write are next -/
  | read (v : WVars) (new opt : Rat) (st : List PClass) (rest : List (List PClass))
  /-- at the end of the loop body, processes.py 108 -/
  | check (v : WVars) (opt : Rat) (rest : List (List PClass))
  /-- about to put its result, processes.py 122-123 -/
  | put (v : WVars)
  /-- in the exception handler, before the write of -1, processes.py 130 -/
  | failing
  /-- about to put the failure message, processes.py 131 -/
  | failPut
  /-- `run` has ended, the message is in the queue's buffer; the feeder thread has yet to write
  it to the pipe -/
  | buffered (m : Msg)
  /-- the process has ended and its message is in the pipe -/
  | done (m : Msg)
  /-- killed; `none`: nothing complete is in its pipe -/
  | dead (m : Option Msg)

/-- the largest entry, `max(array)`; -1 is below all entries -/
def arrayMax : List Rat → Option Rat
  | [] => none
  | x :: xs => some (xs.foldl max x)

/-- Parameters of the workers -/
structure MPParams where
  ar : Arith
  start : Rat
  throttle : Bool
  /-- readings of `time()` in each worker -/
  clock : Nat → Nat → Rat
  /-- `_force_raise_error_index`: the worker indexes for which `run` raises at once,
  processes.py 65-66 -/
  force : Nat → Bool
  /-- does a message fit into the operating system's pipe buffer? -/
  fits : Msg → Bool

/-- the beginning of `run`, processes.py 68-77: initial solution -/
def workerInit (M : MPParams) (w : Inst) : Except PyErr WVars := do
  let r ← w.initSolution M.ar
  let best ← r.1.calcObj M.ar
  return ⟨r.1, best, r.2, none, 0⟩

/-- local search for one strategy, processes.py 80-84 -/
def workerSearch (M : MPParams) (p : Nat) (v : WVars) (st : List PClass) :
    Except PyErr (WVars × Rat) := do
  let i := { v.inst with strategy := st }
  let r ← i.localSearch M.ar (fun k => M.clock p (v.tick + k)) M.start M.throttle
  let new ← r.1.calcObj M.ar
  return ({ v with inst := r.1, tick := v.tick + r.2.tick }, new)

/-- One step of worker `p` (given its instance and its strategies): the new phase and the
shared array.  A phase that cannot move stays.  An exception leads to the handler. -/
def workerStep (M : MPParams) (p : Nat) (w : Inst) (chunk : List (List PClass)) (ph : Phase)
    (arr : List Rat) : Phase × List Rat :=
  match ph with
  | .start =>
    if M.force p then (.failing, arr)                                       -- 65-66
    else
      match workerInit M w with
      | .error _ => (.failing, arr)
      | .ok v => (.loop v chunk, arr)
  | .loop v rest =>
    match rest with
    | [] => (.put v, arr)
    | st :: rest =>
      match workerSearch M p v st with
      | .error _ => (.failing, arr)
      | .ok (v, new) => (.searched v new st rest, arr)
  | .searched v new st rest =>
    match arrayMax arr with                                                 -- 85
    | some opt => (.read v new opt st rest, arr)
    | none => (.failing, arr)
  | .read v new opt st rest =>
    if checkSolution new v.best then                                        -- 87-106
      match v.inst.getSolution with
      | .error _ => (.failing, arr.set p new)
      | .ok r =>
        let v := { v with best := new, retained := r, strategy := some st }
        if globalCheck new optimumObjVal then (.put v, arr.set p new)
        else (.check v opt rest, arr.set p new)
    else (.check v opt rest, arr)
  | .check v opt rest =>                                                    -- 108-120
    let late := outOfTime M.ar (M.clock p v.tick) M.start v.inst.maxTime
    let v := { v with tick := v.tick + 1 }
    if late || globalCheck opt optimumObjVal then (.put v, arr) else (.loop v rest, arr)
  | .put v => (.buffered ⟨v.best, v.retained.1, v.retained.2, v.strategy⟩, arr)   -- 122-123
  | .failing => (.failPut, arr.set p (-1))                                  -- 130
  | .failPut => (.buffered failMsg, arr)                                    -- 131
  | .buffered m => if M.fits m then (.done m, arr) else (.buffered m, arr)
  | .done m => (.done m, arr)
  | .dead m => (.dead m, arr)

/-- an exception raised inside the `try` block of `run` -/
def Phase.raise : Phase → Phase
  | .start => .failing
  | .loop .. => .failing
  | .searched .. => .failing
  | .read .. => .failing
  | .check .. => .failing
  | .put _ => .failing
  | ph => ph

/-- the operating system kills the process -/
def Phase.kill : Phase → Phase
  | .done m => .done m
  | .dead m => .dead m
  | _ => .dead none

/-- an event for one worker -/
inductive MPEvent where
  | step
  | raise
  | kill
  deriving DecidableEq, Repr

/-- the workers' phases and the shared array -/
structure MPState where
  phases : List Phase
  arr : List Rat

/-- one event of the schedule; an index without worker has no effect -/
def mpStep (M : MPParams) (w : Inst) (chunks : List (List (List PClass))) (s : MPState)
    (e : Nat × MPEvent) : MPState :=
  match s.phases[e.1]?, chunks[e.1]? with
  | some ph, some chunk =>
    match e.2 with
    | .step =>
      let r := workerStep M e.1 w chunk ph s.arr
      ⟨s.phases.set e.1 r.1, r.2⟩
    | .raise => ⟨s.phases.set e.1 ph.raise, s.arr⟩
    | .kill => ⟨s.phases.set e.1 ph.kill, s.arr⟩
  | _, _ => s

/-- the state after a schedule, from the start of the processes; the shared array starts with
zeros, heuristics.py 501-503 -/
def mpRun (M : MPParams) (w : Inst) (chunks : List (List (List PClass)))
    (schedule : List (Nat × MPEvent)) : MPState :=
  schedule.foldl (mpStep M w chunks) ⟨chunks.map (fun _ => .start), chunks.map (fun _ => 0)⟩

/-- has the process ended, so that `join` returns? -/
def Phase.ended : Phase → Bool
  | .done _ => true
  | .dead _ => true
  | _ => false

/-- what is in the pipe of an ended process -/
def Phase.message : Phase → Option Msg
  | .done m => some m
  | .dead m => m
  | _ => none

/-- how `_multi_process_hypersearch` ends: it returns, raises, or never comes back -/
inductive MPOutcome where
  | returned (sol : Solution) (ov : ObjVals) (strategy : Option (List PClass))
  | raised (e : PyErr)
  | blocked
  deriving DecidableEq

/-- index of the first occurrence, `shared_list.index(x)` -/
def firstIdx (x : Rat) : List Rat → Nat
  | [] => 0
  | y :: ys => if y = x then 0 else firstIdx x ys + 1

/-- the parent once the workers will do nothing more, heuristics.py 524-563: `join` waits
forever for a process that has not ended, `queue.get()` for a queue without a message -/
def mpFinish (i : Inst) (s : MPState) : MPOutcome :=
  if !s.phases.all Phase.ended then .blocked                                -- 524-525
  else
    match arrayMax s.arr with                                               -- 527-530
    | none => .raised .valueError
    | some m =>
      if m = -1 then .raised (.multiProcessError "ALL_PROCESSES_FAILED")    -- 530-531
      else
        match (s.phases[firstIdx m s.arr]?).bind Phase.message with         -- 538-541
        | none => .blocked
        | some msg =>
          match i.deepcopySolution msg.sol with                             -- 543
          | .error e => .raised e
          | .ok sol => .returned sol (copyObjVals msg.ov) msg.strategy      -- 544-563

/-- `_multi_process_hypersearch`, heuristics.py 492-563, for a schedule after which no worker
moves any more -/
def Inst.multiHS (E : Env) (M : MPParams) (strategies : List (List PClass))
    (schedule : List (Nat × MPEvent)) (i : Inst) : MPOutcome :=
  match strategyChunks strategies i.workers with
  | .error e => .raised e
  | .ok chunks =>
    match workerInst E i with
    | .error e => .raised e
    | .ok w => mpFinish i (mpRun M w chunks schedule)

end HP
