import Verif.Spec
import Verif.Model.Value
/-
Specifications used by the properties of `log_solution`, `create_figure` and
`generate_problem_data`.
-/
namespace HP.Spec

/-- the length of a container in a report: its own in bin packing; in strip packing the height of
the stack of items, or the minimum height if that is larger -/
def reportLength (strip : Bool) (minHeight : Option Nat) (length : Nat) (rs : List Rect) : Nat :=
  if strip then max (stackHeight rs) (minHeight.getD 0) else length

/-- where the figures of an export go: directory, name setting and file extension -/
def ExportTo (ex : List (PyVal × PyVal)) (dir name ext : String) : Prop :=
  PyVal.get? ex "path" = some (.str dir) ∧
  (PyVal.get? ex "file_name" = some (.str name) ∨ (PyVal.get? ex "file_name" = none ∧ name = "")) ∧
  (((PyVal.get? ex "type" = some (.str "html") ∨ PyVal.get? ex "type" = none) ∧ ext = "html") ∨
   (PyVal.get? ex "type" = some (.str "image") ∧ PyVal.get? ex "format" = some (.str ext)))

/-- the file name of the figure of container `cid` -/
def figureName (name cid ext : String) : String := name ++ "__" ++ cid ++ "." ++ ext

/-- `n` is `x` times `num / den`, rounded to a nearest integer -/
def RoundsTo (num den x n : Nat) : Prop := 2 * num * x ≤ 2 * den * n + den ∧ 2 * den * n ≤ 2 * num * x + den

end HP.Spec
