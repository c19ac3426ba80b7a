import Verif.Model.Machine
/-
Model of `PointGenPack` (heuristics.py 317-325): the class has the constructor and the settings
validation of `PointGenerationSolver` (heuristics.py 194-260) and the figures of
`SolutionFigureMixin`; it has neither `local_search`, `hypersearch`, `sort_items` nor
`orient_items`.  The attributes are those of `Inst`; `maxTime`, `workers` and `bestStrategy` do
not exist, keep a dummy value and are read by no call of this class.
-/
namespace HP

/-- `validate_settings()` of `PointGenPack`, mixins.py 965-967 with `_validate_settings` of
heuristics.py 214-256 -/
def Inst.pgValidate (E : Env) (i : Inst) : Inst × Except PyErr Unit :=
  match i.validateBase with
  | (j, .error e) => (j, .error e)
  | (j, .ok ()) => j.validateFigure E

/-- `PointGenPack(containers, items, settings, strip_pack_width=stripWidth)`, heuristics.py
194-210; an omitted argument is None -/
def pgMk (E : Env) (containers items settings stripWidth : PyVal) : Except PyErr Inst :=
  match initContainers containers stripWidth with
  | .error e => .error e
  | .ok (strip, cs, height) =>
    match (buildStructure .items items).2 with
    | .error e => .error e
    | .ok its =>
      match Inst.pgValidate E (rawInst strip cs its height settings) with
      | (_, .error e) => .error e
      | (i, .ok ()) => .ok i

/-- the calls that only `HyperPack` has, heuristics.py 328-334 -/
def Op.hyperOnly : Op → Bool
  | .localSearch _ _ => true
  | .sortItems _ => true
  | .orientItems _ => true
  | .hypersearch _ => true
  | _ => false

/-- One call on a `PointGenPack` object.  Settings are validated as above (heuristics.py
258-260, 278-281); a method that does not exist raises AttributeError; everything else is
inherited from the classes that `HyperPack` inherits it from. -/
def pgStep (A : Arith) (i : Inst) (o : Op) : Inst × Outcome :=
  match o with
  | .settings E v => outcomeOf (Inst.pgValidate E { i with settings := v })
  | .validate E => outcomeOf (i.pgValidate E)
  | o => if o.hyperOnly then (i, .raised .attributeError) else step A i o

/-- the `PointGenPack` objects that can be reached from a constructed one -/
inductive PGReach (A : Arith) : Inst → Prop where
  | new {E : Env} {containers items settings stripWidth : PyVal} {i : Inst} :
      pgMk E containers items settings stripWidth = .ok i → PGReach A i
  | step {i : Inst} (o : Op) : PGReach A i → PGReach A (pgStep A i o).1

end HP
