import Verif.Model.Machine
/-
Specification of what each call may change: the attributes of a `HyperPack` object, and for every call the
attributes that may be different afterwards.
-/
namespace HP.Spec

/-- the attributes of an object -/
inductive Attr where
  /-- bin or strip packing -/
  | mode
  | items
  /-- `containers`, with the number of containers -/
  | containers
  | height
  | minHeight
  /-- the heights of the last local search of a strip -/
  | history
  | settings
  /-- what the settings turn on: rotation, time limit, number of workers -/
  | options
  /-- which versions of plotly and kaleido were found -/
  | versions
  | strategy
  /-- `solution` and `obj_val_per_container` -/
  | result
  | bestStrategy
  deriving DecidableEq

/-- the attribute has the same value in both -/
def Attr.Same (i j : Inst) : Attr → Prop
  | .mode => j.strip = i.strip
  | .items => j.items = i.items
  | .containers => j.containers = i.containers ∧ j.containersNum = i.containersNum
  | .height => j.height = i.height
  | .minHeight => j.minHeight = i.minHeight
  | .history => j.heights = i.heights
  | .settings => j.settings = i.settings
  | .options => j.rotation = i.rotation ∧ j.maxTime = i.maxTime ∧ j.workers = i.workers
  | .versions => j.plotlyInstalled = i.plotlyInstalled ∧ j.plotlyOk = i.plotlyOk ∧
      j.kaleidoInstalled = i.kaleidoInstalled ∧ j.kaleidoOk = i.kaleidoOk
  | .strategy => j.strategy = i.strategy
  | .result => j.solution = i.solution ∧ j.objVals = i.objVals
  | .bestStrategy => j.bestStrategy = i.bestStrategy

/-- `items` or `containers` -/
def Attr.of : SKind → Attr
  | .items => .items
  | .containers => .containers

/-- `workers_num` is 1 -/
def SoleWorker (i : Inst) : Prop := i.workers = .int 1 ∨ i.workers = .bool true ∨ i.workers = .float 1

open Classical in
/-- the attributes a call may change -/
noncomputable def mayChange (i : Inst) : Op → List Attr
  | .assign k _ | .setKey k _ _ | .delKey k _ | .setDim k _ _ _ | .popKey k _ _ | .popItem k | .clear k
  | .update k _ | .updateDim k _ _ | .setDefault k _ _ => [.of k, .result]
  | .delDim _ _ | .delAttr _ | .log | .figure _ _ => []
  | .height _ => [.height]
  | .minHeight _ => [.minHeight]
  | .resetHeight => if i.strip then [.height, .minHeight] else []
  | .strategy _ => [.strategy]
  | .settings _ _ | .validate _ => [.settings, .options, .versions]
  | .editSettings _ => [.settings]
  | .solve _ => [.result]
  | .localSearch _ _ => if i.strip then [.result, .height, .history] else [.result]
  | .sortItems _ | .orientItems _ => [.items, .result]
  | .hypersearch _ =>
    [.items, .result, .bestStrategy] ++
    (if SoleWorker i then (if i.strip then [.strategy, .height, .history] else [.strategy]) else [])

end HP.Spec
