import Verif.Model.Report
import Verif.Model.Float
/-
Text output: `str(problem.items)`, `str(problem.containers)` (structures.py 296-310, 327-337), the
text of `log_solution` (mixins.py 640-671) and the axes of the figures (mixins.py 814-819, 882-899).
A text is the list of its characters.
Simplifications: the sizes are non-negative ints (a size given as `True` is printed `True` by the
code); ids are strings, printed as they are; `repr` of a string is a parameter.
-/
namespace HP

/-- `str(n)` of an int -/
def natText (n : Nat) : List Char := Nat.toDigits 10 n

/-- `"\n".join(ls)` -/
def joinLines : List (List Char) → List Char
  | [] => []
  | [l] => l
  | l :: ls => l ++ '\n' :: joinLines ls

/-- entry of an item, structures.py 333-335 -/
def itemEntry (id : String) (d : Dim) : List Char :=
  "  - id: ".toList ++ id.toList ++ "\n    width: ".toList ++ natText d.w ++ "\n    length: ".toList ++
    natText d.l ++ "\n".toList

/-- entry of the container in strip packing, structures.py 303-304 -/
def stripEntry (id : String) (d : Dim) : List Char :=
  "  - id: ".toList ++ id.toList ++ "\n    width: ".toList ++ natText d.w ++ "\n".toList

/-- `str(items)`, structures.py 327-337 -/
def itemsText (items : PyDict String Dim) : List Char :=
  joinLines ("Items".toList :: items.map (fun p => itemEntry p.1 p.2))

/-- `str(containers)`, structures.py 296-310 -/
def containersText (strip : Bool) (conts : PyDict String Dim) : List Char :=
  joinLines ("Containers".toList :: conts.map (fun p => if strip then stripEntry p.1 p.2 else itemEntry p.1 p.2))

/-- `f"{x:.4f}"` of a non-negative float: the float is exact, the decimal is the nearest, ties to
even (C `printf` on IEEE machines) -/
def fixed4 (x : Rat) : List Char :=
  let n := (roundEven (x * 10000)).toNat
  let f := natText (n % 10000)
  natText (n / 10000) ++ '.' :: (List.replicate (4 - f.length) '0' ++ f)

/-- `percent_items_stored*100`, mixins.py 644-647: a float division and a float multiplication -/
def storedPercent (rnd : Rat → Rat) (log : SolutionLog) : Rat :=
  rnd (rnd ((log.stored : Rat) / (log.total : Rat)) * 100)

/-- `total_items_area*100/(W*L)`, mixins.py 656: one division of ints -/
def utilPercent (rnd : Rat → Rat) (c : ContLog) : Rat :=
  rnd (((c.itemsArea * 100 : Nat) : Rat) / ((c.width * c.length : Nat) : Rat))

/-- the lines of a container, mixins.py 652-664 -/
def contLines (rnd : Rat → Rat) (c : ContLog) : List (List Char) :=
  ["Container: ".toList ++ c.id.toList ++ ' ' :: (natText c.width ++ 'x' :: natText c.length),
   "\t[util%] : ".toList ++ fixed4 (utilPercent rnd c) ++ ['%']] ++
  (match c.maxHeight with
   | some h => ["\t[max height] : ".toList ++ natText h]
   | none => [])

/-- `str` of a list of strings: `[r1, r2, ...]` -/
def listText : List (List Char) → List Char
  | [] => "[]".toList
  | x :: xs => '[' :: (x ++ (xs.flatMap (fun y => ", ".toList ++ y) ++ [']']))

/-- the text of `log_solution`, mixins.py 643-669 -/
def logText (rnd : Rat → Rat) (repr : String → List Char) (log : SolutionLog) : List Char :=
  joinLines (["\nSolution Log:".toList,
    "Percent total items stored : ".toList ++ fixed4 (storedPercent rnd log) ++ ['%']] ++
    log.containers.flatMap (contLines rnd) ++
    ["\nRemaining items : ".toList ++ listText (log.remaining.map repr)])

/-- `log_solution()`, mixins.py 633-671; `none`: it returns None -/
def Inst.logSolutionText (rnd : Rat → Rat) (repr : String → List Char) (i : Inst) :
    Except PyErr (Option (List Char)) := do
  let log ← i.logSolution
  return log.map (logText rnd repr)

/-- `get_figure_dtick_value(dimension)`, mixins.py 814-819: `math.ceil(dimension / 20)` -/
def dtick (rnd : Rat → Rat) (dimension : Nat) : Int := (rnd ((dimension : Rat) / 20)).ceil

/-- an axis of a figure, mixins.py 884-899 -/
structure Axis where
  low : Int
  high : Int
  tick0 : Int
  dtick : Int
  deriving DecidableEq, Repr

/-- the axes of a figure, mixins.py 882-899 -/
def axes (rnd : Rat → Rat) (f : Figure) : Axis × Axis :=
  (⟨-2, f.width + 2, 0, dtick rnd f.width⟩, ⟨-2, f.length + 2, 0, dtick rnd f.length⟩)

end HP
