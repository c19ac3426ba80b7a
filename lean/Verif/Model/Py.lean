/-
Python semantics used by the model: errors as values, list indexing with negative
indexes, short-circuit `and` / `or` over expressions that may raise, insertion-ordered
dictionaries.
-/
namespace HP

/-- Python exceptions as values.  The hyperpack exception classes
(hyperpack/exceptions.py 20-139) carry the name of the message constant they are raised
with.  `outOfFuel` is not a Python exception: it marks an exhausted loop bound of the
model and is proved never to occur. -/
inductive PyErr where
  | indexError
  | keyError
  | valueError
  | typeError
  | attributeError
  | zeroDivisionError
  | notImplementedError
  | containersError (msg : String)
  | itemsError (msg : String)
  | dimensionsError (msg : String)
  | settingsError (msg : String)
  | potentialPointsError (msg : String)
  | multiProcessError (msg : String)
  | figureExportError (msg : String)
  | outOfFuel
  deriving DecidableEq, Repr

/-- Python sequence index normalisation: `i` if `0 ≤ i < n`, `n + i` if `-n ≤ i < 0`,
otherwise there is no such element (IndexError). Language semantics. -/
def pyIdx (n : Nat) (i : Int) : Option Nat :=
  if 0 ≤ i then (if i < n then some i.toNat else none)
  else if -(n : Int) ≤ i then some ((n : Int) + i).toNat else none

/-- `xs[i]`. Language semantics. -/
def pyGet {α : Type} (xs : List α) (i : Int) : Except PyErr α :=
  match pyIdx xs.length i with
  | none => .error .indexError
  | some k =>
    match xs[k]? with
    | some a => .ok a
    | none => .error .indexError

/-- `xs[i] = v`. Language semantics. -/
def pySet {α : Type} (xs : List α) (i : Int) (v : α) : Except PyErr (List α) :=
  match pyIdx xs.length i with
  | none => .error .indexError
  | some k => .ok (xs.set k v)

/-- `a and b` where both may raise; `b` is evaluated only if `a` is true. -/
def andP (a b : Except PyErr Bool) : Except PyErr Bool :=
  match a with
  | .error e => .error e
  | .ok true => b
  | .ok false => .ok false

/-- `a or b` where both may raise; `b` is evaluated only if `a` is false. -/
def orP (a b : Except PyErr Bool) : Except PyErr Bool :=
  match a with
  | .error e => .error e
  | .ok true => .ok true
  | .ok false => b

/-- apply a boolean test to the value of an expression that may raise, e.g. `e in (2, 3)`. -/
def testP {α : Type} (e : Except PyErr α) (p : α → Bool) : Except PyErr Bool :=
  match e with
  | .error e => .error e
  | .ok a => .ok (p a)

/-! ### Insertion ordered dictionaries (`dict`), as association lists -/

/-- A Python dict with keys `κ`: list of pairs in insertion order. -/
abbrev PyDict (κ : Type) (α : Type) := List (κ × α)

namespace PyDict
variable {κ α : Type} [DecidableEq κ]

/-- `d.get(k)` -/
def find? (d : PyDict κ α) (k : κ) : Option α :=
  match d with
  | [] => none
  | (k', a) :: rest => if k' = k then some a else find? rest k

/-- `d[k]` (KeyError when absent) -/
def getE (d : PyDict κ α) (k : κ) : Except PyErr α :=
  match find? d k with
  | some a => .ok a
  | none => .error .keyError

/-- `d[k] = a`: replaces in place when the key exists, otherwise appends. -/
def insert (d : PyDict κ α) (k : κ) (a : α) : PyDict κ α :=
  match d with
  | [] => [(k, a)]
  | (k', a') :: rest => if k' = k then (k', a) :: rest else (k', a') :: insert rest k a

/-- removal of a key (no effect when absent) -/
def erase (d : PyDict κ α) (k : κ) : PyDict κ α :=
  match d with
  | [] => []
  | (k', a') :: rest => if k' = k then rest else (k', a') :: erase rest k

/-- `del d[k]` (KeyError when absent) -/
def delE (d : PyDict κ α) (k : κ) : Except PyErr (PyDict κ α) :=
  match find? d k with
  | some _ => .ok (erase d k)
  | none => .error .keyError

/-- `list(d)` -/
def keys (d : PyDict κ α) : List κ := d.map (·.1)

end PyDict

/-- `xs.remove(x)` (ValueError when absent) -/
def pyRemove {α : Type} [DecidableEq α] (xs : List α) (x : α) : Except PyErr (List α) :=
  if x ∈ xs then .ok (xs.erase x) else .error .valueError

end HP
