import Verif.SpecReport
import Verif.SpecSettings
import Verif.Model.Export
/-
Specifications used by the property about the effects of `create_figure` (C100).
-/
namespace HP.Spec

/-- the width or height of an exported image: the setting, or 1700 if there is none -/
def ImageSize (ex : List (PyVal × PyVal)) (key : String) (v : PyVal) : Prop :=
  (PyVal.get? ex key = some v ∧ ¬ CountsFalse v) ∨
  ((PyVal.get? ex key = none ∨ ∃ x, PyVal.get? ex key = some x ∧ CountsFalse x) ∧ v = .int 1700)

/-- what the file of a figure contains: an html page, or an image in the asked format and size -/
def ContentOf (ex : List (PyVal × PyVal)) (f : Figure) (c : FileContent) : Prop :=
  ((PyVal.get? ex "type" = some (.str "html") ∨ PyVal.get? ex "type" = none) ∧ c = .page f) ∨
  (PyVal.get? ex "type" = some (.str "image") ∧ ∃ fmt w h, PyVal.get? ex "format" = some (.str fmt) ∧
    ImageSize ex "width" w ∧ ImageSize ex "height" h ∧ c = .image f fmt w h)

/-- the figure at the path `p` is that of container `c`: no container after `c` has the same path -/
def LastAt (path : String → Option (List (List Char))) (done : List (String × Dim)) (p : List (List Char))
    (c : String × Dim) : Prop :=
  ∃ a b, done = a ++ c :: b ∧ path c.1 = some p ∧ ∀ x ∈ b, path x.1 ≠ some p

/-- the files after the figures of the containers `done` were exported in this order: a path of one
of them holds the figure of the last container with this path, every other file is as before -/
def Exported (IsFigure : String × Dim → Figure → Prop) (ex : PyVal) (path : String → Option (List (List Char)))
    (done : List (String × Dim)) (k k' : Disk) : Prop :=
  (∀ p, (∀ c ∈ done, path c.1 ≠ some p) → k' p = k p) ∧
  (∀ p c, LastAt path done p c → ∃ d f, ex = .dict d ∧ IsFigure c f ∧ ContentOf d f (k' p))

end HP.Spec
