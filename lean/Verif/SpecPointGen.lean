import Verif.Model.PointGen
/-
Specification of C69: when a `PointGenPack` object and a `HyperPack` object are the same as far as
the calls of the former are concerned.
-/
namespace HP

/-- the key is `max_time_in_seconds` or `workers_num` -/
def PyVal.isSearchKey (k : PyVal) : Bool := k.eqStr "max_time_in_seconds" || k.eqStr "workers_num"

/-- the entries without `max_time_in_seconds` and `workers_num` -/
def withoutSearch (st : List (PyVal × PyVal)) : List (PyVal × PyVal) :=
  st.filter (fun e => !e.1.isSearchKey)

/-- the same for a settings value; nothing to do for one that is not a dict -/
def PyVal.withoutSearch : PyVal → PyVal
  | .dict st => .dict (HP.withoutSearch st)
  | v => v

/-- the call with `max_time_in_seconds` and `workers_num` left out of the settings passed -/
def Op.withoutSearch : Op → Op
  | .settings E v => .settings E v.withoutSearch
  | .editSettings v => .editSettings v.withoutSearch
  | o => o

/-- the history on a `HyperPack` object that corresponds to one on a `PointGenPack` object: calls
of methods the latter does not have (they raise AttributeError) are left out -/
def hyperHistory (ops : List Op) : List Op :=
  (ops.filter (fun o => !o.hyperOnly)).map Op.withoutSearch

/-- `p` and `h` have the same problem, rotation setting, strategy, heights and result, and the same
settings apart from `max_time_in_seconds` and `workers_num`, which `h` has not -/
structure Twin (p h : Inst) : Prop where
  strip : p.strip = h.strip
  containers : p.containers = h.containers
  items : p.items = h.items
  height : p.height = h.height
  minHeight : p.minHeight = h.minHeight
  rotation : p.rotation = h.rotation
  strategy : p.strategy = h.strategy
  containersNum : p.containersNum = h.containersNum
  solution : p.solution = h.solution
  objVals : p.objVals = h.objVals
  settings : p.settings.withoutSearch = h.settings
  /-- the flags `_plotly_installed`, `_plotly_ver_ok` and so on -/
  flags : p.plotlyInstalled = h.plotlyInstalled ∧ p.plotlyOk = h.plotlyOk ∧
    p.kaleidoInstalled = h.kaleidoInstalled ∧ p.kaleidoOk = h.kaleidoOk
  /-- `HyperPack` defaults -/
  maxTime : h.maxTime = 60
  workers : h.workers = .int 1
  /-- attributes that calls of `PointGenPack` do not touch -/
  rest : p.heights = h.heights ∧ p.bestStrategy = h.bestStrategy

/-- the outcomes of the calls of a history -/
def outcomes (f : Inst → Op → Inst × Outcome) : Inst → List Op → List Outcome
  | _, [] => []
  | i, o :: ops => (f i o).2 :: outcomes f (f i o).1 ops

/-- the object after a history -/
def after (f : Inst → Op → Inst × Outcome) (i : Inst) (ops : List Op) : Inst :=
  ops.foldl (fun i o => (f i o).1) i

end HP
