import Verif.Model.Subclass
import Verif.SpecPointGen
import Verif.SpecSettings
/-
Specification of C97: an object of a subclass with other default settings behaves as a `HyperPack`
object to which these defaults are given explicitly.
-/
namespace HP

/-- defaults that could also be given as settings: at least one second, a positive number of workers -/
def Defaults.Legal (D : Defaults) : Prop :=
  1 ≤ D.maxTime ∧ Spec.IsPositive D.workers

/-- the settings with the missing ones written out.  (`rotation` and `workers_num` also count as
missing if they are None.) -/
def Defaults.fill (D : Defaults) (st : List (PyVal × PyVal)) : List (PyVal × PyVal) :=
  let st := if (PyVal.getD st "rotation").isNone then setEntry st "rotation" (.bool D.rotation) else st
  let st := if (PyVal.get? st "max_time_in_seconds").isNone then
    setEntry st "max_time_in_seconds" (.int D.maxTime) else st
  if (PyVal.getD st "workers_num").isNone then setEntry st "workers_num" D.workers else st

/-- the same for a settings value; nothing to do for one that is not a dict -/
def Defaults.explicit (D : Defaults) : PyVal → PyVal
  | .dict st => .dict (D.fill st)
  | v => v

/-- the same for the constructor's argument, where None, {} and other values that count as false stand
for {} -/
def Defaults.given (D : Defaults) (settings : PyVal) : PyVal :=
  D.explicit (if settings.truthy then settings else .dict [])

/-- all three settings are given -/
def AllGiven (st : List (PyVal × PyVal)) : Prop :=
  ¬ Spec.Absent st "rotation" ∧ PyVal.get? st "max_time_in_seconds" ≠ none ∧ ¬ Spec.Absent st "workers_num"

/-- the call with the missing settings written out -/
def Op.explicit (D : Defaults) : Op → Op
  | .settings E v => .settings E (D.explicit v)
  | .editSettings v => .editSettings (D.explicit v)
  | o => o

/-- `h` has the attributes of `p`, but with the missing settings written out -/
def ExplicitTwin (D : Defaults) (p h : Inst) : Prop := h = { p with settings := D.explicit p.settings }

/-- the call does not start worker processes -/
def InOneProcess (i : Inst) (o : Op) : Prop := ∀ a, o = .hypersearch a → i.workers.isOne = true

/-- no call of the history starts worker processes -/
def AllInOneProcess (f : Inst → Op → Inst × Outcome) : Inst → List Op → Prop
  | _, [] => True
  | i, o :: ops => InOneProcess i o ∧ AllInOneProcess f (f i o).1 ops

end HP
