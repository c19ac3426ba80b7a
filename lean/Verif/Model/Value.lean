import Verif.Model.Py
/-
Python values that a user can pass to the API (arguments of setters, settings).
-/
namespace HP

/-- A Python value.  Floats are rationals or one of `inf` (positive infinity), `ninf`, `nan`.
`other` stands for any object of a type not listed (including `UserDict`s such as another
problem's `items`): it is not an instance of the listed types, is truthy, and comparing it
with a number raises TypeError.  Subclasses of the listed types and objects that overload
comparison are not modelled. A `dict` is its list of pairs in insertion order. -/
inductive PyVal where
  | none
  | bool (b : Bool)
  | int (i : Int)
  | float (q : Rat)
  | inf
  | ninf
  | nan
  | str (s : String)
  | list (l : List PyVal)
  | tuple (l : List PyVal)
  | dict (l : List (PyVal × PyVal))
  | other (n : Nat)
  deriving Repr

namespace PyVal

/-- truth value testing (language semantics) -/
def truthy : PyVal → Bool
  | none => false
  | bool b => b
  | int i => i != 0
  | float q => q != 0
  | inf => true
  | ninf => true
  | nan => true
  | str s => s != ""
  | list l => !l.isEmpty
  | tuple l => !l.isEmpty
  | dict l => !l.isEmpty
  | other _ => true

/-- `isinstance(v, int)` with the value; `bool` is a subclass of `int` -/
def asInt? : PyVal → Option Int
  | bool b => some (if b then 1 else 0)
  | int i => some i
  | _ => Option.none

/-- `isinstance(v, str)` with the value -/
def asStr? : PyVal → Option String
  | str s => some s
  | _ => Option.none

/-- `isinstance(v, bool)` with the value -/
def asBool? : PyVal → Option Bool
  | bool b => some b
  | _ => Option.none

/-- `isinstance(v, dict)` with the entries -/
def asDict? : PyVal → Option (List (PyVal × PyVal))
  | dict l => some l
  | _ => Option.none

/-- `isinstance(v, tuple)` with the elements -/
def asTuple? : PyVal → Option (List PyVal)
  | tuple l => some l
  | _ => Option.none

/-- `v is None` -/
def isNone : PyVal → Bool
  | none => true
  | _ => false

/-- `v == s` for a string literal `s` -/
def eqStr (v : PyVal) (s : String) : Bool :=
  match v with
  | str t => t == s
  | _ => false

/-- `v > 0`; `none` means that the comparison raises TypeError -/
def gtZero? : PyVal → Option Bool
  | bool b => some b
  | int i => some (decide (i > 0))
  | float q => some (decide (q > 0))
  | inf => some true
  | ninf => some false
  | nan => some false
  | _ => Option.none

/-- `d.get(key)` on the entries of a dict, for a string key -/
def get? : List (PyVal × PyVal) → String → Option PyVal
  | [], _ => Option.none
  | (k, v) :: rest, key => if k.eqStr key then some v else get? rest key

/-- `d.get(key)` with default `None` -/
def getD (d : List (PyVal × PyVal)) (key : String) : PyVal := (get? d key).getD .none

end PyVal
end HP
